import Verif.Spec.SyntheticInput
import Verif.Lemmas.SyntheticRun
/-!
# Lemmas for C93: numbers in texts
-/
namespace Verif
open Res Spec SyntheticData

theorem isSpace_iff (c : Char) : isSpace c = true ↔ c ∈ [' ', '\t', '\n', '\x0b', '\x0c', '\r'] := by
  simp only [isSpace, Bool.or_eq_true, decide_eq_true_eq, Bool.and_eq_true, Char.le_def, List.mem_cons,
    List.not_mem_nil, or_false, ← Char.val_inj, UInt32.le_iff_toNat_le, ← UInt32.toNat_inj]
  simp only [show (' ' : Char).val.toNat = 32 from rfl, show ('\t' : Char).val.toNat = 9 from rfl,
    show ('\r' : Char).val.toNat = 13 from rfl, show ('\n' : Char).val.toNat = 10 from rfl,
    show ('\x0b' : Char).val.toNat = 11 from rfl, show ('\x0c' : Char).val.toNat = 12 from rfl]
  omega

theorem blank_iff (t : List Char) : Blank t ↔ ∀ c ∈ t, isSpace c = true := by
  simp only [Blank, isSpace_iff]

theorem isDigit_iff (c : Char) : ('0' ≤ c ∧ c ≤ '9') ↔ c.isDigit = true := by
  simp [Char.isDigit, Char.le_def]

theorem digit_not_space {c : Char} (h : c.isDigit = true) : isSpace c = false := by
  rw [← isDigit_iff] at h
  simp only [isSpace, Bool.or_eq_false_iff, decide_eq_false_iff_not, Bool.and_eq_false_iff, Char.le_def,
    ← Char.val_inj, UInt32.le_iff_toNat_le, ← UInt32.toNat_inj] at h ⊢
  simp only [show (' ' : Char).val.toNat = 32 from rfl, show ('\t' : Char).val.toNat = 9 from rfl,
    show ('\r' : Char).val.toNat = 13 from rfl, show ('0' : Char).val.toNat = 48 from rfl,
    show ('9' : Char).val.toNat = 57 from rfl] at h ⊢
  omega

theorem ofDigitChars_ge (cs : List Char) : ∀ n, n ≤ Nat.ofDigitChars 10 cs n := by
  induction cs with
  | nil => intro n; rw [Nat.ofDigitChars_nil]; exact Nat.le_refl _
  | cons c cs ih => intro n; rw [Nat.ofDigitChars_cons]; exact Nat.le_trans (by omega) (ih _)

theorem parseDigits_iff (max : Nat) (cs : Text) : ∀ n k, n ≤ max →
    (parseDigits max n cs = some k ↔ (∀ c ∈ cs, c.isDigit = true) ∧ k = Nat.ofDigitChars 10 cs n ∧ k ≤ max) := by
  induction cs with
  | nil =>
    intro n k h
    rw [parseDigits, Nat.ofDigitChars_nil]
    constructor
    · intro e; cases e; exact ⟨by simp, rfl, h⟩
    · rintro ⟨_, rfl, _⟩; rfl
  | cons c cs ih =>
    intro n k h
    rw [parseDigits, Nat.ofDigitChars_cons]
    by_cases hc : '0' ≤ c ∧ c ≤ '9'
    · rw [if_pos hc]
      dsimp only
      rw [Nat.mul_comm n 10]
      have hd := (isDigit_iff c).mp hc
      by_cases hm : 10 * n + (c.toNat - '0'.toNat) ≤ max
      · rw [if_pos hm, ih _ _ hm]; simp [hd]
      · rw [if_neg hm]
        constructor
        · intro e; cases e
        · rintro ⟨_, e, hk⟩
          have := ofDigitChars_ge cs (10 * n + (c.toNat - '0'.toNat))
          omega
    · rw [if_neg hc]
      constructor
      · intro e; cases e
      · rintro ⟨e, _⟩; exact absurd ((isDigit_iff c).mpr (e c (by simp))) hc

theorem dropWhile_spec (t : Text) : ∃ a, t = a ++ t.dropWhile isSpace ∧ Blank a ∧
    ∀ c, (t.dropWhile isSpace).head? = some c → isSpace c = false := by
  induction t with
  | nil => exact ⟨[], rfl, by simp [Blank], by simp⟩
  | cons c t ih =>
    rw [List.dropWhile_cons]
    split
    · rename_i h
      obtain ⟨a, e, ha, hd⟩ := ih
      refine ⟨c :: a, by rw [List.cons_append, ← e], ?_, hd⟩
      rw [blank_iff] at ha ⊢
      intro x hx
      rcases List.mem_cons.mp hx with rfl | hx
      · exact h
      · exact ha x hx
    · rename_i h
      exact ⟨[], rfl, by simp [Blank], by intro x hx; cases hx; simpa using h⟩

theorem dropWhile_blank {a m : Text} (ha : Blank a) (hm : ∀ c, m.head? = some c → isSpace c = false) :
    (a ++ m).dropWhile isSpace = m := by
  rw [blank_iff] at ha
  rw [List.dropWhile_append_of_pos ha]
  cases m with
  | nil => rfl
  | cons c m => rw [List.dropWhile_cons_of_neg]; simp [hm c rfl]

theorem Spec.Blank.reverse {a : Text} (h : Blank a) : Blank a.reverse := fun c hc => h c (List.mem_reverse.mp hc)

theorem strip_spec (t : Text) : ∃ a b, t = a ++ strip t ++ b ∧ Blank a ∧ Blank b := by
  obtain ⟨a, e, ha, -⟩ := dropWhile_spec t
  obtain ⟨b, e', hb, -⟩ := dropWhile_spec (t.dropWhile isSpace).reverse
  refine ⟨a, b.reverse, ?_, ha, hb.reverse⟩
  have : t.dropWhile isSpace = strip t ++ b.reverse := by
    rw [strip, ← List.reverse_append, ← e', List.reverse_reverse]
  rw [List.append_assoc, ← this]
  exact e

theorem strip_of {a m b : Text} (ha : Blank a) (hb : Blank b) (hm : m ≠ [])
    (h1 : ∀ c, m.head? = some c → isSpace c = false) (h2 : ∀ c, m.getLast? = some c → isSpace c = false) :
    strip (a ++ m ++ b) = m := by
  rw [strip, List.append_assoc, dropWhile_blank ha, List.reverse_append, dropWhile_blank hb.reverse, List.reverse_reverse]
  · intro c hc; exact h2 c (by rw [← hc, List.head?_reverse])
  · intro c hc
    obtain ⟨x, m, rfl⟩ := List.exists_cons_of_ne_nil hm
    exact h1 c hc

theorem strip_numeral {a s d b : Text} {n : Nat} (ha : Blank a) (hb : Blank b)
    (hs : ∀ c ∈ s, isSpace c = false) (hd : Numeral d n) : strip (a ++ s ++ d ++ b) = s ++ d := by
  obtain ⟨h1, h2, -⟩ := hd
  rw [List.append_assoc a s d]
  have h3 : ∀ c ∈ s ++ d, isSpace c = false := by
    intro c hc
    rcases List.mem_append.mp hc with h | h
    · exact hs c h
    · exact digit_not_space (h2 c h)
  exact strip_of ha hb (by simp [h1]) (fun c hc => h3 c (List.mem_of_mem_head? hc))
    (fun c hc => h3 c (List.mem_of_mem_getLast? hc))

theorem not_digit_plus : ¬ ('+' : Char).isDigit = true := by decide
theorem not_digit_minus : ¬ ('-' : Char).isDigit = true := by decide

/-- The sign and the digits of a text that writes a natural number, or has no minus sign. -/
theorem parseSign_false {t cs : Text} (h : parseSign t = some (false, cs)) :
    cs ≠ [] ∧ ∃ a s b, t = a ++ s ++ cs ++ b ∧ Blank a ∧ Blank b ∧ (s = [] ∨ s = ['+']) := by
  obtain ⟨a, b, e, ha, hb⟩ := strip_spec t
  rw [parseSign] at h
  split at h
  · cases h
  · split at h <;> cases h
  · rename_i cs' he
    split at h
    · cases h
    · rename_i hne
      cases h
      exact ⟨hne, a, ['+'], b, by rw [he] at e; rw [e]; simp, ha, hb, Or.inr rfl⟩
  · rename_i cs' hne hm hp
    cases h
    exact ⟨fun h => hne h, a, [], b, by rw [List.append_nil]; exact e, ha, hb, Or.inl rfl⟩

theorem parseSign_true {t cs : Text} (h : parseSign t = some (true, cs)) :
    cs ≠ [] ∧ ∃ a b, t = a ++ ['-'] ++ cs ++ b ∧ Blank a ∧ Blank b := by
  obtain ⟨a, b, e, ha, hb⟩ := strip_spec t
  rw [parseSign] at h
  split at h
  · cases h
  · rename_i cs' he
    split at h
    · cases h
    · rename_i hne
      cases h
      exact ⟨hne, a, b, by rw [he] at e; rw [e]; simp, ha, hb⟩
  · split at h <;> cases h
  · cases h

theorem parseSign_natural {a s d b : Text} {n : Nat} (ha : Blank a) (hb : Blank b) (hs : s = [] ∨ s = ['+'])
    (hd : Numeral d n) : parseSign (a ++ s ++ d ++ b) = some (false, d) := by
  have e := strip_numeral ha hb (s := s) (by rcases hs with rfl | rfl <;> simp [isSpace]) hd
  obtain ⟨h1, h2, -⟩ := hd
  rw [parseSign, e]
  rcases hs with rfl | rfl
  · obtain ⟨c, d, rfl⟩ := List.exists_cons_of_ne_nil h1
    have hc := h2 c (by simp)
    show (match c :: d with | [] => none | '-' :: cs => _ | '+' :: cs => _ | cs => _) = _
    split
    · rename_i h; cases h
    · rename_i h; cases h; exact absurd hc not_digit_minus
    · rename_i h; cases h; exact absurd hc not_digit_plus
    · rfl
  · show (if d = [] then none else some (false, d)) = _
    rw [if_neg h1]

theorem parseSign_negative {a d b : Text} {n : Nat} (ha : Blank a) (hb : Blank b)
    (hd : Numeral d n) : parseSign (a ++ ['-'] ++ d ++ b) = some (true, d) := by
  have e := strip_numeral ha hb (s := ['-']) (by simp [isSpace]) hd
  rw [parseSign, e]
  show (if d = [] then none else some (true, d)) = _
  rw [if_neg hd.1]

theorem atoiU128_iff (t : Text) (x : U128) : atoiU128 t = some x ↔ Natural t x.toNat := by
  constructor
  · intro h
    rw [atoiU128] at h
    split at h
    · rename_i cs hp
      obtain ⟨hne, a, s, b, e, ha, hb, hs⟩ := parseSign_false hp
      obtain ⟨n, hn, rfl⟩ := Option.map_eq_some_iff.mp h
      obtain ⟨h1, h2, h3⟩ := (parseDigits_iff _ cs 0 n (by omega)).mp hn
      refine ⟨a, s, cs, b, e, ha, hb, hs, hne, h1, ?_⟩
      rw [BitVec.toNat_ofNat, Nat.mod_eq_of_lt (by omega), h2]
    · cases h
  · rintro ⟨a, s, d, b, rfl, ha, hb, hs, hd⟩
    rw [atoiU128, parseSign_natural ha hb hs hd]
    dsimp only
    have := x.isLt
    rw [(parseDigits_iff _ d 0 x.toNat (by omega)).mpr ⟨hd.2.1, hd.2.2, by omega⟩]
    simp

theorem atoiInt_iff (t : Text) (i : Int) : atoiInt t = some i ↔ Integer t i ∧ -2 ^ 31 ≤ i ∧ i < 2 ^ 31 := by
  constructor
  · intro h
    rw [atoiInt] at h
    split at h
    · rename_i cs hp
      obtain ⟨hne, a, b, e, ha, hb⟩ := parseSign_true hp
      obtain ⟨n, hn, hi⟩ := Option.map_eq_some_iff.mp h
      obtain ⟨h1, h2, h3⟩ := (parseDigits_iff _ cs 0 n (by omega)).mp hn
      exact ⟨Or.inr ⟨a, cs, b, n, e, ha, hb, ⟨hne, h1, h2⟩, hi.symm⟩, by omega, by omega⟩
    · rename_i cs hp
      obtain ⟨hne, a, s, b, e, ha, hb, hs⟩ := parseSign_false hp
      obtain ⟨n, hn, hi⟩ := Option.map_eq_some_iff.mp h
      obtain ⟨h1, h2, h3⟩ := (parseDigits_iff _ cs 0 n (by omega)).mp hn
      exact ⟨Or.inl ⟨n, ⟨a, s, cs, b, e, ha, hb, hs, hne, h1, h2⟩, hi.symm⟩, by omega, by omega⟩
    · cases h
  · rintro ⟨⟨n, ⟨a, s, d, b, rfl, ha, hb, hs, hd⟩, rfl⟩ | ⟨a, d, b, n, rfl, ha, hb, hd, rfl⟩, h1, h2⟩
    · rw [atoiInt, parseSign_natural ha hb hs hd]
      dsimp only
      rw [(parseDigits_iff _ d 0 n (by omega)).mpr ⟨hd.2.1, hd.2.2, by omega⟩]
      rfl
    · rw [atoiInt, parseSign_negative ha hb hd]
      dsimp only
      rw [(parseDigits_iff _ d 0 n (by omega)).mpr ⟨hd.2.1, hd.2.2, by omega⟩]
      rfl

/-! ## Lines -/

theorem splitFrom_none (t : Text) (h : ',' ∉ t) : ∀ cur, splitFrom cur t = [cur.reverse ++ t] := by
  induction t with
  | nil => intro cur; simp [splitFrom]
  | cons c t ih =>
    intro cur
    simp only [List.mem_cons, not_or] at h
    rw [splitFrom, if_neg (fun e => h.1 e.symm), ih h.2]; simp

theorem splitFrom_comma (u v : Text) (h : ',' ∉ u) : ∀ cur, splitFrom cur (u ++ ',' :: v) =
    (cur.reverse ++ u) :: splitFrom [] v := by
  induction u with
  | nil => intro cur; simp [splitFrom]
  | cons c u ih =>
    intro cur
    simp only [List.mem_cons, not_or] at h
    rw [List.cons_append, splitFrom, if_neg (fun e => h.1 e.symm), ih h.2]; simp

theorem comma_split (t : Text) : ',' ∉ t ∨ ∃ u v, t = u ++ ',' :: v ∧ ',' ∉ u := by
  by_cases h : ',' ∈ t
  · obtain ⟨u, v, e, hu⟩ := List.eq_append_cons_of_mem h
    exact Or.inr ⟨u, v, e, hu⟩
  · exact Or.inl h

theorem split_unique {u v u' v' : Text} (hu : ',' ∉ u) (hu' : ',' ∉ u') (e : u ++ ',' :: v = u' ++ ',' :: v') :
    u = u' ∧ v = v' := by
  induction u generalizing u' with
  | nil =>
    cases u' with
    | nil => simp at e; exact ⟨rfl, e⟩
    | cons c u' => simp at e; exact absurd (by rw [e.1]; simp) hu'
  | cons c u ih =>
    cases u' with
    | nil => simp at e; exact absurd (by rw [e.1]; simp) hu
    | cons c' u' =>
      simp only [List.cons_append, List.cons.injEq] at e
      simp only [List.mem_cons, not_or] at hu hu'
      obtain ⟨h1, h2⟩ := ih hu.2 hu'.2 e.2
      exact ⟨by rw [e.1, h1], h2⟩

theorem Spec.Blank.no_comma {t : Text} (h : Blank t) : ',' ∉ t := by
  intro hc; have := h _ hc; simp at this

theorem Spec.Natural.no_comma {t : Text} {n : Nat} (h : Natural t n) : ',' ∉ t := by
  obtain ⟨a, s, d, b, rfl, ha, hb, hs, hd⟩ := h
  intro hc
  simp only [List.mem_append] at hc
  rcases hc with ((h | h) | h) | h
  · exact ha.no_comma h
  · rcases hs with rfl | rfl <;> simp at h
  · have := hd.2.1 _ h; simp [Char.isDigit] at this
  · exact hb.no_comma h

theorem Spec.Natural.not_blank {t : Text} {n : Nat} (h : Natural t n) : ¬ Blank t := by
  obtain ⟨a, s, d, b, rfl, ha, hb, hs, hd⟩ := h
  intro hc
  obtain ⟨c, d, rfl⟩ := List.exists_cons_of_ne_nil hd.1
  have h1 := (isSpace_iff c).mpr (hc c (by simp))
  rw [digit_not_space (hd.2.1 c (by simp))] at h1
  cases h1

theorem Spec.Line.of_natural {u v : Text} {n : Nat} (h : Natural u n) (hv : v = [] ∨ v.head? = some ',') : Line (u ++ v) n :=
  ⟨[], u, v, by simp, by simp, Or.inl rfl, h, hv⟩

/-- A line without commas. -/
theorem line_none {t : Text} {n : Nat} (h : ',' ∉ t) : Line t n ↔ Natural t n := by
  constructor
  · rintro ⟨a, f, b, rfl, h1, h2, h3, h4⟩
    simp only [List.mem_append, not_or] at h
    have ha : a = [] := by
      rcases h2 with h2 | h2
      · exact h2
      · exact absurd (List.mem_of_mem_getLast? h2) h.1.1
    have hb : b = [] := by
      rcases h4 with h4 | h4
      · exact h4
      · exact absurd (List.mem_of_mem_head? h4) h.2
    subst ha hb; simpa using h3
  · intro hn; simpa using Line.of_natural (v := []) hn (Or.inl rfl)

/-- A line with a first column `u`. -/
theorem line_comma {u v : Text} {n : Nat} (hu : ',' ∉ u) :
    Line (u ++ ',' :: v) n ↔ Natural u n ∨ (Blank u ∧ Line v n) := by
  constructor
  · rintro ⟨a, f, b, e, h1, h2, h3, h4⟩
    rcases comma_split a with ha | ⟨w, a', rfl, hw⟩
    · have ha' : a = [] := by
        rcases h2 with h2 | h2
        · exact h2
        · exact absurd (List.mem_of_mem_getLast? h2) ha
      subst ha'
      have hb : ∃ b', b = ',' :: b' := by
        rcases h4 with rfl | h4
        · have : ',' ∈ f := by
            have : ',' ∈ [] ++ f ++ ([] : Text) := by rw [← e]; simp
            simpa using this
          exact absurd this h3.no_comma
        · cases b with
          | nil => cases h4
          | cons c b => cases h4; exact ⟨b, rfl⟩
      obtain ⟨b', rfl⟩ := hb
      obtain ⟨rfl, _⟩ := split_unique hu h3.no_comma e
      exact Or.inl h3
    · simp only [List.append_assoc, List.cons_append] at e
      obtain ⟨rfl, rfl⟩ := split_unique hu hw e
      refine Or.inr ⟨?_, a', f, b, by simp, fun c hc => h1 c (by simp [hc]), ?_, h3, h4⟩
      · intro c hc
        rcases h1 c (by simp [hc]) with rfl | h
        · exact absurd hc hu
        · exact h c (by simp)
      · cases a' with
        | nil => exact Or.inl rfl
        | cons c a' =>
          refine Or.inr ?_
          rcases h2 with h2 | h2
          · simp at h2
          · rw [List.getLast?_append, List.getLast?_cons_cons] at h2
            simpa [List.getLast?_cons] using h2
  · rintro (h | ⟨h, a, f, b, rfl, h1, h2, h3, h4⟩)
    · exact Line.of_natural h (Or.inr rfl)
    · refine ⟨u ++ ',' :: a, f, b, by simp, ?_, ?_, h3, h4⟩
      · intro c hc
        simp only [List.mem_append, List.mem_cons] at hc
        rcases hc with hc | hc | hc
        · exact Or.inr fun x hx => by obtain rfl : x = c := by simpa using hx
                                      exact h x hc
        · exact Or.inl hc
        · exact h1 c hc
      · refine Or.inr ?_
        rcases h2 with rfl | h2
        · simp
        · cases a with
          | nil => cases h2
          | cons c a => rw [List.getLast?_append, List.getLast?_cons_cons, h2]; rfl

theorem splitFields_none {t : Text} (h : ',' ∉ t) : (Blank t → splitFields t = []) ∧ (¬ Blank t → splitFields t = [t]) := by
  rw [splitFields, splitFrom_none t h, List.reverse_nil, List.nil_append, blank_iff]
  constructor
  · intro hb; simpa using hb
  · intro hb; simpa using hb

theorem splitFields_comma {u v : Text} (h : ',' ∉ u) : (Blank u → splitFields (u ++ ',' :: v) = splitFields v) ∧
    (¬ Blank u → splitFields (u ++ ',' :: v) = u :: splitFields v) := by
  rw [splitFields, splitFrom_comma u v h, List.reverse_nil, List.nil_append, blank_iff]
  constructor
  · intro hb; rw [List.filter_cons_of_neg (by simpa using hb)]; rfl
  · intro hb; rw [List.filter_cons_of_pos (by simpa using hb)]; rfl

theorem readLine_cons {t f : Text} {fs : List Text} (h : splitFields t = f :: fs) : readLine t = checked (atoiU128 f) := by
  rw [readLine, h]; rfl

theorem readLine_nil {t : Text} (h : splitFields t = []) : readLine t = crash := by
  rw [readLine, h]; rfl

theorem checked_ok {α : Type} {o : Option α} {a : α} : checked o = ok a ↔ o = some a := by
  cases o <;> simp [checked]

/-- A line is read exactly if it has a number in its first column that is not blank. -/
theorem readLine_iff (x : U128) : ∀ (n : Nat) (t : Text), t.length ≤ n → (readLine t = ok x ↔ Line t x.toNat)
  | n, t, hn => by
    rcases comma_split t with h | ⟨u, v, rfl, hu⟩
    · rw [line_none h]
      by_cases hb : Blank t
      · rw [readLine_nil ((splitFields_none h).1 hb)]
        exact ⟨fun e => (by cases e), fun e => absurd hb e.not_blank⟩
      · rw [readLine_cons ((splitFields_none h).2 hb), checked_ok, atoiU128_iff]
    · rw [line_comma hu]
      by_cases hb : Blank u
      · have e : readLine (u ++ ',' :: v) = readLine v := by
          rw [readLine, readLine, (splitFields_comma hu).1 hb]
        rw [e]
        cases n with
        | zero => simp at hn
        | succ n =>
          rw [readLine_iff x n v (by simp at hn; omega)]
          exact ⟨fun e => Or.inr ⟨hb, e⟩, fun e => by
            rcases e with e | e
            · exact absurd hb e.not_blank
            · exact e.2⟩
      · rw [readLine_cons ((splitFields_comma hu).2 hb), checked_ok, atoiU128_iff]
        exact ⟨Or.inl, fun e => by
          rcases e with e | e
          · exact e
          · exact absurd e.1 hb⟩

theorem readLine_total (t : Text) : readLine t = crash ∨ ∃ x, readLine t = ok x := by
  cases h : splitFields t with
  | nil => exact Or.inl (readLine_nil h)
  | cons f fs =>
    rw [readLine_cons h]
    cases atoiU128 f with
    | none => exact Or.inl rfl
    | some x => exact Or.inr ⟨x, rfl⟩

theorem readLines_ok : (lines : List Text) → (xs acc : List U128) → mapRes readLine lines = ok xs →
    readLines lines acc = ok (xs.foldl (fun s x => setInsert x s) acc)
  | [], xs, acc, h => by cases h; rfl
  | l :: lines, xs, acc, h => by
    rw [mapRes_cons] at h
    rcases readLine_total l with e | ⟨x, e⟩
    · rw [e] at h; cases h
    · rw [e] at h
      cases e' : mapRes readLine lines with
      | ok ys =>
        rw [e'] at h
        cases h
        rw [readLines, e]
        exact readLines_ok lines ys _ e'
      | err c => rw [e'] at h; cases h
      | ub => rw [e'] at h; cases h
      | crash => rw [e'] at h; cases h

theorem readLines_crash : (lines : List Text) → (acc : List U128) → (∃ t ∈ lines, readLine t = crash) →
    readLines lines acc = crash
  | [], _, h => by obtain ⟨t, h, _⟩ := h; cases h
  | l :: lines, acc, h => by
    rcases readLine_total l with e | ⟨x, e⟩
    · rw [readLines, e]; rfl
    · rw [readLines, e]
      refine readLines_crash lines _ ?_
      obtain ⟨t, ht, h⟩ := h
      rcases List.mem_cons.mp ht with rfl | ht
      · rw [h] at e; cases e
      · exact ⟨t, ht, h⟩

end Verif
