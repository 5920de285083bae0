import Verif.Spec.Files
import Verif.Spec.RatMath
import Verif.Props.PajekCases
import Verif.Props.Demand
import Verif.Props.Report

/-!
**C89**: the files of the library on every machine.  **C90**: ends of lines and marks of other programs in files that are read.
-/

set_option linter.unusedSectionVars false

namespace Sidermit

variable {K : Type}

/-! ### encodings and ends of lines -/

theorem fromUtf8_utf8 (s : Str) : fromUtf8 (utf8 s) = some s := by
  have h : (utf8 s).toByteArray = s.utf8Encode := rfl
  simp [fromUtf8, h, List.utf8Decode?_utf8Encode]

theorem utf8_ascii {s : Str} (h : IsAscii s) : utf8 s = s.map fun c => UInt8.ofNat c.toNat := by
  induction s with
  | nil => rfl
  | cons c t ih =>
    have hc : c.toNat < 128 := h c List.mem_cons_self
    have ht := ih fun d hd => h d (List.mem_cons_of_mem _ hd)
    unfold utf8 at ht ⊢
    rw [List.flatMap_cons, ht, List.map_cons]
    have : String.utf8EncodeChar c = [UInt8.ofNat c.toNat] := by
      unfold String.utf8EncodeChar
      have hv : c.val.toNat ≤ 127 := by
        have : c.toNat = c.val.toNat := rfl
        omega
      simp only [hv, if_true]
      rfl
    rw [this]
    rfl

/-- the bytes of a character: one below 128, or the first two at least 128 -/
theorem utf8_char (c : Char) : (∃ x, String.utf8EncodeChar c = [x] ∧ x.toNat < 128) ∨
    ∃ x y t, String.utf8EncodeChar c = x :: y :: t ∧ 128 ≤ x.toNat ∧ 128 ≤ y.toNat := by
  unfold String.utf8EncodeChar
  dsimp only
  split
  · refine .inl ⟨_, rfl, ?_⟩
    rw [UInt8.toNat_ofNat']
    omega
  · right
    split
    · refine ⟨_, _, _, rfl, ?_, ?_⟩ <;> rw [UInt8.toNat_ofNat'] <;> omega
    · split
      · refine ⟨_, _, _, rfl, ?_, ?_⟩ <;> rw [UInt8.toNat_ofNat'] <;> omega
      · refine ⟨_, _, _, rfl, ?_, ?_⟩ <;> rw [UInt8.toNat_ofNat'] <;> omega

/-- a byte of at least 128 among bytes below 128 is not `utf-8` -/
theorem not_utf8 {a rest : Bytes} {x : UInt8} (ha : ∀ y ∈ a, y.toNat < 128) (hx : 128 ≤ x.toNat)
    (hr : ∀ y, rest.head? = some y → y.toNat < 128) : fromUtf8 (a ++ x :: rest) = none := by
  have key : ∀ (a : Bytes) (s : Str), (∀ y ∈ a, y.toNat < 128) → utf8 s ≠ a ++ x :: rest := by
    intro a
    induction a with
    | nil =>
      intro s _ h
      cases s with
      | nil => cases h
      | cons c t =>
        rw [utf8, List.flatMap_cons, List.nil_append] at h
        rcases utf8_char c with ⟨y, hy, hy'⟩ | ⟨y, z, u, hy, _, hz⟩
        · rw [hy] at h
          injection h with h1 _
          subst h1
          omega
        · rw [hy] at h
          injection h with _ h2
          have := hr z (by rw [← h2]; rfl)
          omega
    | cons b a ih =>
      intro s hb h
      cases s with
      | nil => cases h
      | cons c t =>
        rw [utf8, List.flatMap_cons, List.cons_append] at h
        rcases utf8_char c with ⟨y, hy, hy'⟩ | ⟨y, z, u, hy, hy', _⟩
        · rw [hy] at h
          injection h with _ h2
          exact ih t (fun w hw => hb w (List.mem_cons_of_mem _ hw)) h2
        · rw [hy] at h
          injection h with h1 _
          have := hb b List.mem_cons_self
          subst h1
          omega
  cases h : fromUtf8 (a ++ x :: rest) with
  | none => rfl
  | some s =>
    exfalso
    unfold fromUtf8 at h
    obtain ⟨l, hl, _⟩ := Option.map_eq_some_iff.1 h
    obtain ⟨m, hm⟩ := ByteArray.isSome_utf8Decode?_iff.1 (by rw [hl]; rfl)
    refine key a m ha ?_
    have e : (utf8 m).toByteArray = (a ++ x :: rest).toByteArray := hm.symm
    have := congrArg (fun b => b.data.toList) e
    simpa using this

theorem plainEnds_of_endsAs {s t : Str} (h : EndsAs s t) : plainEnds t = s := by
  induction h with
  | nil => rfl
  | @char c s t h1 h2 _ ih =>
    rw [plainEnds]
    · rw [ih]
    · intro t' h3; exact absurd h3 h2
    · intro h3; exact absurd h3 h2
  | lf _ ih =>
    rw [plainEnds]
    · rw [ih]
    · intro t' h3; exact absurd h3 (by decide)
    · intro h3; exact absurd h3 (by decide)
  | crlf _ ih => rw [plainEnds, ih]
  | @cr s t h1 _ ih =>
    rw [plainEnds]
    · rw [ih]
    · intro t' h3
      rw [h3] at h1
      exact h1 rfl

theorem endsAs_lineEnds (crlf : Bool) {s : Str} (h : '\r' ∉ s) : EndsAs s (lineEnds crlf s) := by
  induction s with
  | nil => exact .nil
  | cons c t ih =>
    have ht := ih fun hm => h (List.mem_cons_of_mem _ hm)
    unfold lineEnds
    by_cases hc : c = '\n'
    · subst hc
      split
      · exact .crlf ht
      · exact .lf ht
    · rw [if_neg fun hh => hc hh.1]
      exact .char hc (fun hr => h (hr ▸ List.mem_cons_self)) ht

theorem exists_endsAs (t : Str) : ∃ s, EndsAs s t := by
  induction hn : t.length using Nat.strong_induction_on generalizing t with
  | _ n ih =>
    match t, hn with
    | [], _ => exact ⟨[], .nil⟩
    | c :: t, hn =>
      obtain ⟨s, hs⟩ := ih t.length (by simp at hn; omega) t rfl
      by_cases hc : c = '\n'
      · subst hc; exact ⟨_, .lf hs⟩
      by_cases hr : c = '\r'
      · subst hr
        match t, hs, hn with
        | [], hs, _ => exact ⟨_, .cr (by simp) hs⟩
        | d :: t', hs, hn =>
          by_cases hd : d = '\n'
          · subst hd
            obtain ⟨s', hs'⟩ := ih t'.length (by simp at hn; omega) t' rfl
            exact ⟨_, .crlf hs'⟩
          · exact ⟨_, .cr (by simpa using hd) hs⟩
      · exact ⟨_, .char hc hr hs⟩

theorem readText_utf8 (s : Str) : readText (utf8 s) = .ok (plainEnds s) := by
  rw [readText, fromUtf8_utf8]

theorem readText_written (crlf : Bool) {s : Str} (h : '\r' ∉ s) : readText (utf8 (lineEnds crlf s)) = .ok s := by
  rw [readText_utf8, plainEnds_of_endsAs (endsAs_lineEnds crlf h)]

theorem lineEnds_ascii (crlf : Bool) {s : Str} (h : IsAscii s) : IsAscii (lineEnds crlf s) := by
  induction s with
  | nil => exact h
  | cons c t ih =>
    have ht := ih fun d hd => h d (List.mem_cons_of_mem _ hd)
    have hc := h c List.mem_cons_self
    unfold lineEnds
    split
    · intro d hd
      simp only [List.mem_cons] at hd
      rcases hd with rfl | rfl | hd
      · decide
      · decide
      · exact ht d hd
    · intro d hd
      simp only [List.mem_cons] at hd
      rcases hd with rfl | hd
      · exact hc
      · exact ht d hd

/-! ### the text of a city -/

theorem word_no_return {w : Str} (h : IsWord w) : '\r' ∉ w := by
  intro hm
  have := h.2 _ hm
  revert this
  decide

theorem mem_export [NumText K] {g : Graph K} {c : Char} (h : c ∈ g.exportPajek) :
    c ∈ pajekHead ∨ c ∈ "*vertices ".toList ∨ c = '\n' ∨ c ∈ showInt (g.nodes.length : Int) ∨ c = ' ' ∨
      ∃ nd ∈ g.nodes, c ∈ showInt nd.id ∨ c ∈ nd.name ∨ c ∈ (NumText.fmt nd.x : Str) ∨ c ∈ (NumText.fmt nd.y : Str) ∨
        c ∈ nd.kind.text ∨ c ∈ showInt nd.zone ∨ c ∈ (NumText.fmt nd.width : Str) := by
  unfold Graph.exportPajek at h
  rw [List.mem_append, List.mem_append, List.mem_append, List.mem_append, List.mem_flatMap] at h
  rcases h with (h | (h | h) | h) | ⟨nd, hnd, h⟩
  · exact .inl h
  · exact .inr (.inl h)
  · exact .inr (.inr (.inr (.inl h)))
  · exact .inr (.inr (.inl (by simpa using h)))
  · rw [List.mem_append] at h
    rcases h with h | h
    · rcases joinWith_chars _ _ h with h | ⟨w, hw, h⟩
      · exact .inr (.inr (.inr (.inr (.inl h))))
      · refine .inr (.inr (.inr (.inr (.inr ⟨nd, hnd, ?_⟩))))
        simp only [List.mem_cons, List.not_mem_nil, or_false] at hw
        rcases hw with rfl | rfl | rfl | rfl | rfl | rfl | rfl
        · exact .inl h
        · exact .inr (.inl h)
        · exact .inr (.inr (.inl h))
        · exact .inr (.inr (.inr (.inl h)))
        · exact .inr (.inr (.inr (.inr (.inl h))))
        · exact .inr (.inr (.inr (.inr (.inr (.inl h)))))
        · exact .inr (.inr (.inr (.inr (.inr (.inr h)))))
    · exact .inr (.inr (.inl (by simpa using h)))

theorem export_no_return [NumText K] {g : Graph K} (hw : ∀ nd ∈ g.nodes, Writable nd) : '\r' ∉ g.exportPajek := by
  intro h
  rcases mem_export h with h | h | h | h | h | ⟨nd, hnd, h⟩
  · revert h; decide +kernel
  · revert h; decide
  · revert h; decide
  · exact word_no_return (showInt_word _) h
  · revert h; decide
  · rcases h with h | h | h | h | h | h | h
    · exact word_no_return (showInt_word _) h
    · exact word_no_return (hw nd hnd).name h
    · exact word_no_return (hw nd hnd).x.2 h
    · exact word_no_return (hw nd hnd).y.2 h
    · exact word_no_return (Kind.text_word _) h
    · exact word_no_return (showInt_word _) h
    · exact word_no_return (hw nd hnd).width.2 h

theorem showNat_ascii (n : Nat) : IsAscii (showNat n) := by
  intro c hc
  obtain ⟨d, hd, rfl⟩ := showNat_digits n c hc
  interval_cases d <;> decide

theorem showInt_ascii (i : Int) : IsAscii (showInt i) := by
  cases i with
  | ofNat n => exact showNat_ascii n
  | negSucc n =>
    intro c hc
    rw [showInt, List.mem_cons] at hc
    rcases hc with rfl | hc
    · decide
    · exact showNat_ascii _ c hc

theorem pajekHead_ascii : IsAscii pajekHead := by unfold IsAscii; decide +kernel

theorem kindText_ascii (k : Kind) : IsAscii k.text := by unfold IsAscii; cases k <;> decide

theorem export_ascii [NumText K] {g : Graph K} (ha : ∀ nd ∈ g.nodes, AsciiNode nd) : IsAscii g.exportPajek := by
  intro c h
  rcases mem_export h with h | h | h | h | h | ⟨nd, hnd, h⟩
  · exact pajekHead_ascii c h
  · have : IsAscii "*vertices ".toList := by unfold IsAscii; decide
    exact this c h
  · subst h; decide
  · exact showInt_ascii _ c h
  · subst h; decide
  · rcases h with h | h | h | h | h | h | h
    · exact showInt_ascii _ c h
    · exact (ha nd hnd).name c h
    · exact (ha nd hnd).x c h
    · exact (ha nd hnd).y c h
    · exact kindText_ascii _ c h
    · exact showInt_ascii _ c h
    · exact (ha nd hnd).width c h

/-! ## C89 -/

section City

variable [Field K] [LinearOrder K] [PyMath K] [NumText K]

/-- **C89**, cities: on a machine that writes `utf-8`, or one that writes ASCII as it is when all that is printed of the nodes
is ASCII, whatever its end of line and whatever the path held before: the city is written, and building a city from the file
is building it from the exported text. -/
theorem C89_city_text {m : Machine} {g : Graph K} (hw : ∀ nd ∈ g.nodes, Writable nd)
    (hm : m.Utf8 ∨ (m.ForAscii ∧ ∀ nd ∈ g.nodes, AsciiNode nd)) (before : Option Bytes) :
    ∃ b, g.toPajekFile m before = (some b, .ok ()) ∧
      (Graph.buildFromBytes b : Py (Graph K)) = buildFromContent g.exportPajek := by
  have he : m.encode (lineEnds m.crlf g.exportPajek) = some (utf8 (lineEnds m.crlf g.exportPajek)) := by
    rcases hm with hm | ⟨hm, ha⟩
    · exact hm _
    · have := lineEnds_ascii m.crlf (export_ascii ha)
      rw [hm _ this, utf8_ascii this]
  refine ⟨utf8 (lineEnds m.crlf g.exportPajek), by rw [Graph.toPajekFile, he], ?_⟩
  rw [Graph.buildFromBytes, readText_written _ (export_no_return hw)]
  rfl

/-- **C89**, cities: what comes back from the file has the nodes of the city, in the same order, with the radius and angle of
their coordinates, and the same zones and edges; it is accepted exactly when these nodes pass the checks of a city.  Partial:
the machine must write `utf-8`, or the texts must be ASCII. -/
theorem C89_city_partial [IsStrictOrderedRing K] {m : Machine} {g : Graph K} {n : Nat} (hs : CityShape g n)
    (hw : ∀ nd ∈ g.nodes, Writable nd) (hm : m.Utf8 ∨ (m.ForAscii ∧ ∀ nd ∈ g.nodes, AsciiNode nd)) (before : Option Bytes) :
    ∃ b, g.toPajekFile m before = (some b, .ok ()) ∧ ∀ g' : Graph K, Graph.buildFromBytes b = .ok g' ↔
      n ≤ 4999 ∧ ∃ ns, List.Forall₂ Remeasured g.nodes ns ∧ (∀ nd ∈ ns, NodeOk nd) ∧ IdsAcrossZones ns ∧ Describable ns ∧
        g' = describedCity ns n := by
  obtain ⟨b, h1, h2⟩ := C89_city_text hw hm before
  exact ⟨b, h1, fun g' => by rw [h2]; exact C16_round_trip hs hw g'⟩

theorem mem_lineEnds (crlf : Bool) {s : Str} {c : Char} (h : c ∈ s) : c ∈ lineEnds crlf s := by
  induction s with
  | nil => cases h
  | cons d t ih =>
    unfold lineEnds
    rcases List.mem_cons.1 h with rfl | h
    · split
      · rename_i hc; rw [hc.1]; simp
      · simp
    · have := ih h
      split <;> simp [this]

/-- **C89**, cities that the machine cannot write: on every machine with Latin-1, if a name has a character that Latin-1 does not
have, the call fails, and whatever the path held before is lost. -/
theorem C89_city_lost {m : Machine} (hm : m.encode = latin1) {g : Graph K} {nd : Node K} {c : Char} (hnd : nd ∈ g.nodes)
    (hc : c ∈ nd.name) (h : 256 ≤ c.toNat) (before : Option Bytes) :
    g.toPajekFile m before = (some [], .error .ValueError) := by
  have hline : c ∈ nodeLine nd := by
    unfold nodeLine
    simp only [joinWith, List.mem_append, List.mem_cons]
    exact .inr (.inr (.inl hc))
  have hexp : c ∈ g.exportPajek :=
    List.mem_append_right _ (List.mem_flatMap.2 ⟨nd, hnd, List.mem_append_left _ hline⟩)
  have he : m.encode (lineEnds m.crlf g.exportPajek) = none := by
    rw [hm, latin1, if_neg]
    intro hall
    have := hall c (mem_lineEnds _ hexp)
    omega
  rw [Graph.toPajekFile, he]

theorem lineEnds_append (crlf : Bool) (a b : Str) : lineEnds crlf (a ++ b) = lineEnds crlf a ++ lineEnds crlf b := by
  induction a with
  | nil => rfl
  | cons c t ih =>
    rw [List.cons_append, lineEnds, lineEnds, ih]
    split <;> rfl

theorem lineEnds_latin1 (crlf : Bool) {s : Str} (h : ∀ c ∈ s, c.toNat < 256) : ∀ c ∈ lineEnds crlf s, c.toNat < 256 := by
  induction s with
  | nil => exact h
  | cons c t ih =>
    have ht := ih fun d hd => h d (List.mem_cons_of_mem _ hd)
    have hc := h c List.mem_cons_self
    unfold lineEnds
    split
    · intro d hd
      simp only [List.mem_cons] at hd
      rcases hd with rfl | rfl | hd
      · decide
      · decide
      · exact ht d hd
    · intro d hd
      simp only [List.mem_cons] at hd
      rcases hd with rfl | hd
      · exact hc
      · exact ht d hd

theorem latin1_unreadable {m : Machine} (hm : m.encode = latin1) {g : Graph K} {a rest : Str} {c : Char}
    (he : g.exportPajek = a ++ c :: rest) (ha : IsAscii a) (hc : 128 ≤ c.toNat) (hr : ∀ d, rest.head? = some d → d.toNat < 128)
    (hl : ∀ d ∈ g.exportPajek, d.toNat < 256) (before : Option Bytes) :
    ∃ b, g.toPajekFile m before = (some b, .ok ()) ∧ (Graph.buildFromBytes b : Py (Graph K)) = .error .ValueError := by
  have hl' := lineEnds_latin1 m.crlf hl
  have hw : m.encode (lineEnds m.crlf g.exportPajek) =
      some ((lineEnds m.crlf g.exportPajek).map fun c => UInt8.ofNat c.toNat) := by
    rw [hm, latin1, if_pos hl']
  refine ⟨_, by rw [Graph.toPajekFile, hw], ?_⟩
  have hcn : ¬ (c = '\n' ∧ m.crlf = true) := by
    rintro ⟨rfl, _⟩
    revert hc; decide
  have hc256 : c.toNat < 256 := hl c (by rw [he]; simp)
  have hb : fromUtf8 ((lineEnds m.crlf g.exportPajek).map fun c => UInt8.ofNat c.toNat) = none := by
    rw [he, lineEnds_append, lineEnds, if_neg hcn, List.map_append, List.map_cons]
    apply not_utf8
    · intro y hy
      obtain ⟨d, hd, rfl⟩ := List.mem_map.1 hy
      have := lineEnds_ascii m.crlf ha d hd
      rw [UInt8.toNat_ofNat']
      omega
    · rw [UInt8.toNat_ofNat']
      omega
    · intro y hy
      cases rest with
      | nil => cases hy
      | cons d t =>
        have hd := hr d rfl
        rw [lineEnds] at hy
        split at hy
        · cases hy; decide
        · cases hy
          rw [UInt8.toNat_ofNat']
          omega
  rw [Graph.buildFromBytes, readText, hb]
  rfl

/-- **C89** fails on every machine with Latin-1, for the cities in whose file the first character outside ASCII is in a name
and stands before an ASCII one or ends the name: the city is written without an error to a file that cannot be read. -/
theorem C89_city_unreadable {m : Machine} (hm : m.encode = latin1) {g : Graph K} {l l' : List (Node K)} {nd : Node K}
    {u v : Str} {c : Char} (hn : g.nodes = l ++ nd :: l') (hl : ∀ x ∈ l, AsciiNode x) (hname : nd.name = u ++ c :: v)
    (hu : IsAscii u) (hc : 128 ≤ c.toNat) (hv : ∀ d, v.head? = some d → d.toNat < 128)
    (hall : ∀ d ∈ g.exportPajek, d.toNat < 256) (before : Option Bytes) :
    ∃ b, g.toPajekFile m before = (some b, .ok ()) ∧ (Graph.buildFromBytes b : Py (Graph K)) = .error .ValueError := by
  have hline : ∃ w : Str, nodeLine nd ++ ['\n'] = (showInt nd.id ++ ' ' :: u) ++ c :: (v ++ ' ' :: w) := by
    refine ⟨joinWith ' ' [NumText.fmt nd.x, NumText.fmt nd.y, nd.kind.text, showInt nd.zone, NumText.fmt nd.width] ++ ['\n'], ?_⟩
    unfold nodeLine
    rw [hname]
    simp only [joinWith, List.append_assoc, List.cons_append]
  obtain ⟨w, hw⟩ := hline
  refine latin1_unreadable hm (a := pajekHead ++ ("*vertices ".toList ++ showInt (g.nodes.length : Int) ++ ['\n']) ++
    ((l.flatMap fun nd => nodeLine nd ++ ['\n']) ++ (showInt nd.id ++ ' ' :: u)))
    (rest := v ++ ' ' :: w ++ (l'.flatMap fun nd => nodeLine nd ++ ['\n'])) (c := c) ?_ ?_ hc ?_ hall before
  · unfold Graph.exportPajek
    have e : (g.nodes.flatMap fun nd => nodeLine nd ++ ['\n']) = (l.flatMap fun nd => nodeLine nd ++ ['\n']) ++
        ((showInt nd.id ++ ' ' :: u) ++ c :: (v ++ ' ' :: w) ++ (l'.flatMap fun nd => nodeLine nd ++ ['\n'])) := by
      rw [hn, List.flatMap_append, List.flatMap_cons, hw]
    rw [e]
    simp only [List.append_assoc, List.cons_append]
  · have hlines : IsAscii (l.flatMap fun nd => nodeLine nd ++ ['\n']) := by
      have := export_ascii (g := { g with nodes := l }) hl
      intro d hd
      exact this d (List.mem_append_right _ hd)
    intro d hd
    simp only [List.mem_append, List.mem_cons, List.not_mem_nil, or_false] at hd
    rcases hd with (hd | (hd | hd) | rfl) | hd | hd | rfl | hd
    · exact pajekHead_ascii d hd
    · have : IsAscii "*vertices ".toList := by unfold IsAscii; decide
      exact this d hd
    · exact showInt_ascii _ d hd
    · decide
    · exact hlines d hd
    · exact showInt_ascii _ d hd
    · decide
    · exact hu d hd
  · intro d hd
    cases v with
    | nil => cases hd; decide
    | cons x t => exact hv d hd

/-- **C89**, demands: on every machine, the demand written to a file is read back from it as the same object. -/
theorem C89_demand [IsStrictOrderedRing K] (m : Machine) {g : Graph K} {d : Demand K}
    (h : Demand.History g (fun o e => IsNodeId g o ∧ IsNodeId g e) d)
    (hp : ∀ o e v, lookup2 d.matrix o e = some v → PrintsWell v) :
    Demand.buildFromBytes g (d.matrixToFile m) = .ok d := by
  have hn := nodeCells_nodup (nodeCells_history h)
  have hr : '\r' ∉ d.toCsv := by
    unfold Demand.toCsv
    have e := matrixEntries_eq hn
    unfold matrixEntries at e
    rw [e, List.mem_append, List.mem_flatMap]
    rintro (hc | ⟨c, hc, hcl⟩)
    · revert hc; decide
    · obtain ⟨k, hk, rfl⟩ := List.mem_map.1 hc
      obtain ⟨v, hv⟩ := Option.isSome_iff_exists.1 ((mem_matrixKeys hn k).1 hk)
      rw [hv, Option.getD_some] at hcl
      unfold csvLine at hcl
      simp only [List.mem_append, List.mem_cons, List.not_mem_nil, or_false] at hcl
      rcases hcl with (hx | hx | hx | hx | hx) | hx
      · exact word_no_return (showInt_word _) hx
      · revert hx; decide
      · exact word_no_return (showInt_word _) hx
      · revert hx; decide
      · have := ((hp _ _ _ hv).2 _ hx).2
        revert this; decide
      · revert hx; decide
  rw [Demand.buildFromBytes, Demand.matrixToFile, readText_written _ hr]
  exact C07_csv_round_trip h hp

/-- **C89**, results: the file of the results holds the text of the results, which every reader of `utf-8` finds again, or, when
there is no such text, the call fails with the same error and the path holds what it held before. -/
theorem C89_results [FloorRing K] (m : Machine) (o : Optimizer K) (best : Option (Res K)) (before : Option Bytes) :
    (∀ t, o.stringNetworkResults best = .ok t → '\r' ∉ t →
      ∃ b, o.writeNetworkResults m best before = (some b, .ok ()) ∧ readText b = .ok t) ∧
    (∀ e, o.stringNetworkResults best = .error e → o.writeNetworkResults m best before = (before, .error e)) := by
  constructor
  · intro t ht hr
    exact ⟨_, by rw [Optimizer.writeNetworkResults, ht], readText_written _ hr⟩
  · intro e he
    rw [Optimizer.writeNetworkResults, he]

theorem row_no_return [IsStrictOrderedRing K] [FloorRing K] {r : Row K} (hid : '\r' ∉ r.id) (hI : ∀ s ∈ r.tableI, PrintsPlain s.2.2)
    (hR : ∀ s ∈ r.tableR, PrintsPlain s.2.2) : '\r' ∉ rowText r := by
  have hint : ∀ (i : Int), ∀ c ∈ showInt i, c ≠ '\r' := fun i c hc he => word_no_return (showInt_word i) (he ▸ hc)
  have hfix : ∀ (x : K), ∀ c ∈ fixed 2 x, c ≠ '\r' := by
    intro x c hc
    rcases fixed_chars 2 x c hc with rfl | rfl | ⟨d, hd, rfl⟩
    · decide
    · decide
    · interval_cases d <;> decide
  have htop : ∀ (x : WithTop K), ∀ c ∈ fixedTop 2 x, c ≠ '\r' := by
    intro x c hc
    cases x with
    | top =>
      have : ∀ c ∈ "inf".toList, c ≠ '\r' := by decide
      exact this c hc
    | coe y => exact hfix y c hc
  have hcharge : ∀ x : K, PrintsPlain x → ∀ c ∈ chargeText r x, c ≠ '\r' := by
    intro x hx c hc he
    unfold chargeText at hc
    split at hc
    · have := (hx.1.2 c hc).2
      rw [he] at this
      revert this; decide
    · exact hint 0 c hc he
  have htable : ∀ l : List (Int × Int × K), (∀ s ∈ l, PrintsPlain s.2.2) → ∀ c ∈ tableText (chargeText r) l, c ≠ '\r' := by
    intro l hl c hc
    unfold tableText at hc
    rw [List.mem_cons, List.mem_append] at hc
    rcases hc with rfl | hc | hc
    · decide
    · refine commaJoin_chars (fun c => c ≠ '\r') (by decide) (by decide) _ ?_ c hc
      intro w hw c hc
      obtain ⟨s, hs, rfl⟩ := List.mem_map.1 hw
      unfold tupleText at hc
      rw [List.mem_cons, List.mem_append] at hc
      rcases hc with rfl | hc | hc
      · decide
      · refine commaJoin_chars (fun c => c ≠ '\r') (by decide) (by decide) _ ?_ c hc
        intro w hw c hc
        simp only [List.mem_cons, List.not_mem_nil, or_false] at hw
        rcases hw with rfl | rfl | rfl
        · exact hint _ c hc
        · exact hint _ c hc
        · exact hcharge _ (hl s hs) c hc
      · rw [List.mem_singleton] at hc; rw [hc]; decide
    · rw [List.mem_singleton] at hc; rw [hc]; decide
  intro hm
  refine joined_chars (fun c => c ≠ '\r') (sep := ';') (by decide) _ ?_ '\r' hm rfl
  intro w hw c hc
  simp only [List.mem_cons, List.not_mem_nil, or_false] at hw
  rcases hw with rfl | rfl | rfl | rfl | rfl | rfl | rfl | rfl | rfl | rfl
  · exact fun he => hid (he ▸ hc)
  · exact hfix _ c hc
  · exact hfix _ c hc
  · exact hfix _ c hc
  · exact hfix _ c hc
  · exact hfix _ c hc
  · exact hfix _ c hc
  · exact htop _ c hc
  · exact htable _ hI c hc
  · exact htable _ hR c hc

/-- **C89**, results: on every machine the rows of the results come back from the file, with the ids of the routes in their order
and every number up to half a hundredth, the charges exactly. -/
theorem C89_results_read [IsStrictOrderedRing K] [FloorRing K] (m : Machine) {o : Optimizer K} {best : Option (Res K)}
    {rows : List (Row K)} (h : o.networkResults best = .ok rows)
    (hids : ∀ r ∈ o.net.routes, PlainName r.id ∧ '\r' ∉ r.id) (hzero : NumText.parse (K := K) ['0'] = some 0)
    (hnum : ∀ r ∈ rows, (∀ s ∈ r.tableI, PrintsPlain s.2.2) ∧ ∀ s ∈ r.tableR, PrintsPlain s.2.2) (before : Option Bytes) :
    ∃ b text seen, o.writeNetworkResults m best before = (some b, .ok ()) ∧ readText b = .ok text ∧
      readReport text = some seen ∧ List.Forall₂ SaysSame rows seen ∧ seen.map Row.id = o.net.routes.map Route.id := by
  obtain ⟨text, seen, h1, h2, h3, h4⟩ := C72_read_back h (fun r hr => (hids r hr).1) hzero hnum
  have ht : text = rowsText rows := by
    rw [Optimizer.stringNetworkResults, h] at h1
    exact (Except.ok.inj h1).symm
  have hr : '\r' ∉ text := by
    rw [ht]
    unfold rowsText
    rw [List.mem_append, List.mem_flatMap]
    rintro (hc | ⟨r, hr, hc⟩)
    · revert hc; decide +kernel
    · rw [List.mem_cons] at hc
      rcases hc with hc | hc
      · revert hc; decide
      · refine row_no_return ?_ (hnum r hr).1 (hnum r hr).2 hc
        have : r.id ∈ o.net.routes.map Route.id := by
          have hrows := networkResults_rows h
          clear h1 h2 h3 h4 ht hc hnum hids h
          generalize o.net.routes = rs at hrows
          induction hrows with
          | nil => cases hr
          | cons h _ ih =>
            rcases List.mem_cons.1 hr with rfl | hr
            · rw [List.map_cons, h.1]; exact List.mem_cons_self
            · exact List.mem_cons_of_mem _ (ih hr)
        obtain ⟨r', hr', he⟩ := List.mem_map.1 this
        rw [← he]
        exact (hids r' hr').2
  obtain ⟨b, hb, hb'⟩ := (C89_results m o best before).1 text h1 hr
  exact ⟨b, text, seen, hb, hb', h2, h3, h4⟩

end City

/-! ## C90 -/

section Read

variable [Field K] [LinearOrder K] [PyMath K] [NumText K]

/-- **C90**, ends of lines: two files of the same text with lines ended in any of the three ways, even mixed, give the same
city, and for every city the same demand. -/
theorem C90_line_ends {s t t' : Str} (h : EndsAs s t) (h' : EndsAs s t') :
    (Graph.buildFromBytes (utf8 t) : Py (Graph K)) = Graph.buildFromBytes (utf8 t') ∧
    ∀ g : Graph K, Demand.buildFromBytes g (utf8 t) = Demand.buildFromBytes g (utf8 t') := by
  have e : readText (utf8 t) = readText (utf8 t') := by
    rw [readText_utf8, readText_utf8, plainEnds_of_endsAs h, plainEnds_of_endsAs h']
  exact ⟨by rw [Graph.buildFromBytes, e]; rfl, fun g => by rw [Demand.buildFromBytes, e]; rfl⟩

/-- **C90**: the texts of all files are such texts. -/
theorem C90_every_text (t : Str) : ∃ s, EndsAs s t ∧ '\r' ∉ s := by
  obtain ⟨s, hs⟩ := exists_endsAs t
  refine ⟨s, hs, ?_⟩
  induction hs with
  | nil => simp
  | char _ h2 _ ih => simpa [ih] using Ne.symm h2
  | lf _ ih => simpa using ih
  | crlf _ ih => simpa using ih
  | cr _ _ ih => simpa using ih

theorem splitOn_mark {c : Char} (hc : c ≠ '\n') (s : Str) :
    ∃ w ws, splitOn '\n' s = w :: ws ∧ splitOn '\n' (c :: s) = (c :: w) :: ws := by
  cases hs : splitOn '\n' s with
  | nil => exact absurd hs (splitOn_ne_nil _ _)
  | cons w ws => exact ⟨w, ws, rfl, by rw [splitOn, if_neg hc, hs]⟩

theorem plainEnds_mark (t : Str) : plainEnds (byteOrderMark :: t) = byteOrderMark :: plainEnds t := by
  rw [plainEnds]
  · intro t' h; exact absurd h (by decide)
  · intro h; exact absurd h (by decide)

/-- **C90**, marks, demands: the first line of the file of a demand is not read, so a mark before it changes nothing. -/
theorem C90_demand_mark (g : Graph K) (t : Str) :
    Demand.buildFromBytes g (utf8 (byteOrderMark :: t)) = Demand.buildFromBytes g (utf8 t) := by
  rw [Demand.buildFromBytes, Demand.buildFromBytes, readText_utf8, readText_utf8, plainEnds_mark]
  show Demand.buildFromFile g _ = Demand.buildFromFile g _
  obtain ⟨w, ws, h1, h2⟩ := splitOn_mark (c := byteOrderMark) (by decide) (plainEnds t)
  have key : (readLines (byteOrderMark :: plainEnds t)).drop 1 = (readLines (plainEnds t)).drop 1 := by
    unfold readLines
    simp only [h1, h2]
    cases ws with
    | nil =>
      by_cases hw : w = [] <;> simp [hw]
    | cons x xs =>
      simp only [List.getLast?_cons_cons]
      split <;> simp
  rw [Demand.buildFromFile, Demand.buildFromFile, key]

/-- **C90**, marks, cities: a mark before the text of a city changes nothing when the first line is not that of the number of
nodes. -/
theorem C90_city_mark {s t first rest : Str} (h : EndsAs s t) (hs : s = first ++ '\n' :: rest) (hf : '\n' ∉ first)
    (hv : ¬ "*vertices".toList <+: first.map Char.toLower) :
    (Graph.buildFromBytes (utf8 (byteOrderMark :: t)) : Py (Graph K)) = Graph.buildFromBytes (utf8 t) := by
  rw [Graph.buildFromBytes, Graph.buildFromBytes, readText_utf8, readText_utf8, plainEnds_mark]
  show buildFromContent _ = buildFromContent _
  obtain ⟨w, ws, h1, h2⟩ := splitOn_mark (c := byteOrderMark) (by decide) (plainEnds t)
  have hv : isVertices w = false := by
    have e := h1
    rw [plainEnds_of_endsAs h, hs, splitOn_append_sep _ (fun c hc hcn => hf (by rw [← hcn]; exact hc))] at e
    cases e
    unfold isVertices
    rw [Bool.eq_false_iff]
    intro hp
    exact hv (List.isPrefixOf_iff_prefix.1 hp)
  have hv' : isVertices (byteOrderMark :: w) = false := by
    unfold isVertices
    rw [List.map_cons]
    rfl
  have hr : pajekRows (byteOrderMark :: plainEnds t) = pajekRows (plainEnds t) := by
    unfold pajekRows
    rw [h1, h2, List.foldlM_cons, List.foldlM_cons]
    have e : ∀ l : Str, isVertices l = false → fileStep ((0, []) : Int × List FileRow) l = .ok (0, []) := by
      intro l hl
      rw [fileStep, hl]
      rfl
    rw [e _ hv, e _ hv']
  unfold buildFromContent
  rw [hr]

end Read

/-! ### Examples -/

section Examples
attribute [local instance] ratMath ratText

/-- a city without zones whose CBD has the given name -/
def namedCity (name : String) : Py (Graph ℚ) :=
  buildFromContent (fileOf ["*vertices 1", "0 " ++ name ++ " 0/1 0/1 CBD 0 1/1"])

/-- the names of the nodes of the city -/
def cityNames (g : Graph ℚ) : List String := g.nodes.map fun nd => String.ofList nd.name

/-- **C89** fails silently for some names on such a machine: the city comes back with another name. -/
theorem C89_city_renamed : ∃ (g g' : Graph ℚ) (b : Bytes), buildFromContent g.exportPajek = .ok g ∧
    g.toPajekFile latin1Machine none = (some b, .ok ()) ∧ (Graph.buildFromBytes b : Py (Graph ℚ)) = .ok g' ∧
    cityNames g = ["Ã±"] ∧ cityNames g' = ["ñ"] := by
  have h : (namedCity "Ã±").toOption.bind (fun g => (namedCity "ñ").toOption.map fun g' =>
      (decide ((buildFromContent g.exportPajek : Py (Graph ℚ)).toOption = some g),
        decide (latin1Machine.encode (lineEnds latin1Machine.crlf g.exportPajek) = some (utf8 g'.exportPajek)),
        decide ((buildFromContent (plainEnds g'.exportPajek) : Py (Graph ℚ)).toOption = some g'), cityNames g, cityNames g')) =
      some (true, true, true, ["Ã±"], ["ñ"]) := by decide +kernel
  obtain ⟨g, _, h2⟩ := Option.bind_eq_some_iff.1 h
  obtain ⟨g', _, h3⟩ := Option.map_eq_some_iff.1 h2
  simp only [Prod.mk.injEq, decide_eq_true_eq] at h3
  refine ⟨g, g', utf8 g'.exportPajek, toOption_eq_some.1 h3.1, ?_, ?_, h3.2.2.2.1, h3.2.2.2.2⟩
  · rw [Graph.toPajekFile, h3.2.1]
  · rw [Graph.buildFromBytes, readText_utf8]
    exact toOption_eq_some.1 h3.2.2.1

/-- The hypotheses of `C89_city_unreadable`: the city of name `Ñuñoa`, which is read back from its text. -/
example : (namedCity "Ñuñoa").toOption.map (fun g => (decide ((buildFromContent g.exportPajek : Py (Graph ℚ)).toOption = some g),
    g.nodes.map Node.name, decide (∀ d ∈ g.exportPajek, d.toNat < 256))) =
      some (true, [[] ++ 'Ñ' :: "uñoa".toList], true) := by decide +kernel

/-- **C89**, `C89_city_lost` happens: the city of name `€`, which is read back from its text. -/
example : (namedCity "€").toOption.map (fun g => (decide ((buildFromContent g.exportPajek : Py (Graph ℚ)).toOption = some g),
    g.nodes.map Node.name, decide (256 ≤ '€'.toNat))) = some (true, ["€".toList], true) := by decide +kernel

/-- Latin-1 writes ASCII as it is, and there are machines with `utf-8`, so `C89_city_partial` applies to both; the nodes of the
city of name `A` are ASCII and writable, and the file has the ends of lines of the machine. -/
example : latin1Machine.ForAscii ∧ (⟨fun s => some (utf8 s), true⟩ : Machine).Utf8 := by
  constructor
  · intro s hs
    show latin1 s = _
    unfold latin1
    rw [if_pos fun c hc => Nat.lt_trans (hs c hc) (by decide)]
  · intro s
    rfl

example : (namedCity "A").toOption.map (fun g => g.nodes.map Node.name) = some ["A".toList] ∧ IsAscii "A".toList ∧
    IsWord "A".toList := by
  refine ⟨by decide +kernel, by unfold IsAscii; decide, by unfold IsWord; decide⟩

example (q : ℚ) : IsAscii (NumText.fmt q : Str) := by
  intro c hc
  rw [show (NumText.fmt q : Str) = showInt q.num ++ '/' :: showNat q.den from rfl, List.mem_append, List.mem_cons] at hc
  rcases hc with hc | rfl | hc
  · exact showInt_ascii _ c hc
  · decide
  · exact showNat_ascii _ c hc

/-- the three ways of ending a line, mixed -/
example : EndsAs "a\nb\nc\n".toList "a\r\nb\rc\n".toList :=
  .char (by decide) (by decide) (.crlf (.char (by decide) (by decide) (.cr (by decide)
    (.char (by decide) (by decide) (.lf .nil)))))

/-- **C90**, marks: the condition of `C90_city_mark` is needed.  A file that begins with the number of nodes is refused when a
mark is put before it; with a line of text before, it is not. -/
theorem C90_city_mark_needed :
    ["*vertices 1\n0 A 0/1 0/1 CBD 0 1/1", "a city\n*vertices 1\n0 A 0/1 0/1 CBD 0 1/1"].map (fun t : String =>
      (errorOf (Graph.buildFromBytes (utf8 t.toList) : Py (Graph ℚ)),
        errorOf (Graph.buildFromBytes (utf8 (byteOrderMark :: t.toList)) : Py (Graph ℚ)))) =
    [(none, some .LineNumberInFileIsNotValid), (none, none)] := by decide +kernel

/-- **C89**, results: the network of two lines of C72 has rows, and its ids are plain -/
example : (∀ r ∈ (runOpt busDemand fairNet).net.routes, PlainName r.id ∧ '\r' ∉ r.id) := by unfold PlainName; decide +kernel

/-- **C89**, results: without a result the file stays as it was -/
example (m : Machine) : ((runOpt busDemand fairNet).writeNetworkResults m none (some [1, 2, 3])) =
    (some [1, 2, 3], .error .NoOptimalSolutionFound) :=
  (C89_results m _ none _).2 _ rfl

/-- **C89**, demands: the file of a demand on a machine with two characters at the end of a line -/
example : ((buildFromParameters (K := ℚ) 1 10 (1/2) 2 none none none none none).toOption.bind fun g =>
    (Demand.buildFromContent g [[0, 0, 0], [1, 0, 1/2], [3, 0, 0]]).toOption.map fun d =>
      (Demand.buildFromBytes g (d.matrixToFile ⟨latin1, true⟩)).toOption.map fun d' => decide (d' = d)) =
    some (some true) := by decide +kernel

end Examples

end Sidermit
