import Verif.Lemmas.SyntheticInput
import Verif.Props.SyntheticData
/-!
# C93: input of the benchmark program for hierarchical evaluation
-/
namespace Verif
open Res Spec SyntheticData

theorem readLine_line (t : Text) (x : U128) : readLine t = ok x ↔ Line t x.toNat :=
  readLine_iff x t.length t (Nat.le_refl _)

/-- C93, file: reading succeeds exactly if there is no error and every line has a number below 2^128 in its first column
that is not blank. It gives all these numbers, each once and in increasing order. Otherwise the program is terminated. -/
theorem C93_file (file : File) :
    (∀ s, readUniqueValuesFromFile file = ok s ↔ file.ok = true ∧ (∀ t ∈ file.lines, ∃ x : U128, Line t x.toNat) ∧
      s.Pairwise (· < ·) ∧ ∀ x : U128, x ∈ s ↔ ∃ t ∈ file.lines, Line t x.toNat) ∧
    (¬ (file.ok = true ∧ ∀ t ∈ file.lines, ∃ x : U128, Line t x.toNat) → readUniqueValuesFromFile file = crash) := by
  by_cases h : ∀ t ∈ file.lines, ∃ x : U128, Line t x.toNat
  · have hall : ∀ t ∈ file.lines, readLine t = ok ((readLine t).getD 0) := by
      intro t ht
      obtain ⟨x, hx⟩ := h t ht
      rw [(readLine_line t x).mpr hx]; rfl
    have hr := readLines_ok file.lines _ [] (mapRes_eq_ok_map hall)
    have hmem : ∀ x, x ∈ toSet (file.lines.map fun t => (readLine t).getD 0) ↔ ∃ t ∈ file.lines, Line t x.toNat := by
      intro x
      rw [toSet_mem, List.mem_map]
      constructor
      · rintro ⟨t, ht, rfl⟩; exact ⟨t, ht, (readLine_line _ _).mp (hall t ht)⟩
      · rintro ⟨t, ht, hx⟩; exact ⟨t, ht, by rw [(readLine_line t x).mpr hx]; rfl⟩
    have e : readUniqueValuesFromFile file = (check (file.ok = true) >>= fun _ =>
        ok (toSet (file.lines.map fun t => (readLine t).getD 0))) := by
      rw [readUniqueValuesFromFile, hr]; rfl
    by_cases ho : file.ok = true
    · rw [e, check_true ho]
      refine ⟨?_, fun hn => absurd ⟨ho, h⟩ hn⟩
      intro s
      constructor
      · intro hs; cases hs; exact ⟨ho, h, toSet_sorted _, hmem⟩
      · rintro ⟨_, _, hs, hm⟩
        exact congrArg ok (sorted_unique _ _ (toSet_sorted _) hs fun x => by rw [hmem, hm])
    · rw [e, check, if_neg ho]
      exact ⟨fun s => ⟨fun h => (by cases h), fun h => absurd h.1 ho⟩, fun _ => rfl⟩
  · have hc : readUniqueValuesFromFile file = crash := by
      rw [readUniqueValuesFromFile, readLines_crash]
      · rfl
      · have : ∃ t ∈ file.lines, ¬ ∃ x : U128, Line t x.toNat := by
          apply Classical.byContradiction
          intro hn
          exact h fun t ht => Classical.byContradiction fun hx => hn ⟨t, ht, hx⟩
        obtain ⟨t, ht, hx⟩ := this
        refine ⟨t, ht, ?_⟩
        rcases readLine_total t with e | ⟨x, e⟩
        · exact e
        · exact absurd ⟨x, (readLine_line t x).mp e⟩ hx
    exact ⟨fun s => ⟨fun h' => (by rw [hc] at h'; cases h'), fun h' => absurd h'.2.1 h⟩, fun _ => hc⟩

/-- C93 on lines with further columns, white space, a plus sign, leading zeros and the largest number. -/
example : readUniqueValuesFromFile ⟨["7,a".toList, " +05 ,9".toList, "7".toList,
    "340282366920938463463374607431768211455,".toList], true⟩ = ok [5, 7, BitVec.allOnes 128] := by decide +kernel
/-- A number that is too large, a negative number, and an empty line are rejected. -/
example : readUniqueValuesFromFile ⟨["340282366920938463463374607431768211456".toList], true⟩ = crash ∧
    readUniqueValuesFromFile ⟨["-1".toList], true⟩ = crash ∧ readUniqueValuesFromFile ⟨["1".toList, []], true⟩ = crash := by
  decide +kernel

/-- The first column and the rest of a line. -/
theorem firstColumn_split (t : List Char) : ',' ∉ firstColumn t ∧
    (t = firstColumn t ∨ ∃ v, t = firstColumn t ++ ',' :: v) := by
  unfold firstColumn
  induction t with
  | nil => simp
  | cons c t ih =>
    by_cases h : c = ','
    · subst h; exact ⟨by simp, Or.inr ⟨t, by simp⟩⟩
    · rw [List.takeWhile_cons_of_pos (by simpa using h)]
      refine ⟨fun hm => (List.mem_cons.mp hm).elim (fun e => h e.symm) ih.1, ?_⟩
      rcases ih.2 with e | ⟨v, e⟩
      · exact Or.inl (by rw [← e])
      · exact Or.inr ⟨v, by rw [List.cons_append, ← e]⟩

/-- C93, columns: of a line whose first column is not blank, the first column is read; if it does not write a number below
2^128, the program is terminated. Missing: lines with a blank first column, see `C93_column_refuted`. -/
theorem C93_column_partial (t : List Char) (h : ¬ Blank (firstColumn t)) :
    (∀ x : U128, readLine t = ok x ↔ Natural (firstColumn t) x.toNat) ∧
    ((¬ ∃ x : U128, Natural (firstColumn t) x.toNat) → readLine t = crash) := by
  have h1 : ∀ x : U128, readLine t = ok x ↔ Natural (firstColumn t) x.toNat := by
    intro x
    rw [readLine_line]
    obtain ⟨hc, e | ⟨v, e⟩⟩ := firstColumn_split t
    · rw [← e] at hc ⊢; exact line_none hc
    · generalize firstColumn t = u at *
      subst e
      rw [line_comma hc]
      exact ⟨fun h' => h'.elim id fun h' => absurd h'.1 h, Or.inl⟩
  refine ⟨h1, fun hn => ?_⟩
  rcases readLine_total t with e | ⟨x, e⟩
  · exact e
  · exact absurd ⟨x, (h1 x).mp e⟩ hn

/-- C93_column_partial applies to a line with two columns. -/
example : ¬ Blank (firstColumn "12,3".toList) ∧ readLine "12,3".toList = ok 12 := by
  refine ⟨fun h => ?_, by decide +kernel⟩
  have := h '1' (by decide +kernel)
  simp at this

/-- C93 is false of columns: if the first column of a line is empty, the program does not reject the line but takes the
number in the next column. -/
theorem C93_column_refuted : firstColumn ",5".toList = [] ∧ (∀ n, ¬ Natural (firstColumn ",5".toList) n) ∧
    readUniqueValuesFromFile ⟨[",5".toList], true⟩ = ok [5] := by
  have e : firstColumn ",5".toList = [] := by decide +kernel
  refine ⟨e, fun n h => ?_, by decide +kernel⟩
  rw [e] at h
  exact h.not_blank (by simp [Blank])

theorem natural_unique {t : List Char} {m n : Nat} (hm : Natural t m) (hn : Natural t n) : m = n := by
  obtain ⟨a, s, d, b, e, ha, hb, hs, hd⟩ := hm
  obtain ⟨a', s', d', b', e', ha', hb', hs', hd'⟩ := hn
  have h1 := parseSign_natural ha hb hs hd
  have h2 := parseSign_natural ha' hb' hs' hd'
  rw [← e] at h1
  rw [← e', h1] at h2
  cases h2
  rw [hd.2.2, hd'.2.2]

theorem numeral_toDigits (n : Nat) : Numeral (Nat.toDigits 10 n) n :=
  ⟨Nat.toDigits_ne_nil, fun _ h => Nat.isDigit_of_mem_toDigits (by omega) (by omega) h,
    (Nat.ofDigitChars_ten_toDigits).symm⟩

/-- C93, round trip: from a file with one number in each line, written with decimal digits and followed by any other
columns, the program reads exactly these numbers. -/
theorem C93_round_trip (rows : List (U128 × List Char)) :
    ∃ s, readUniqueValuesFromFile ⟨rows.map fun r => (toString r.1.toNat).toList ++ ',' :: r.2, true⟩ = ok s ∧
      s.Pairwise (· < ·) ∧ ∀ x, x ∈ s ↔ ∃ cols, (x, cols) ∈ rows := by
  have hn : ∀ x : U128, Natural (toString x.toNat).toList x.toNat := by
    intro x
    refine ⟨[], [], (toString x.toNat).toList, [], by simp, by simp [Blank], by simp [Blank], Or.inl rfl, ?_⟩
    rw [show (toString x.toNat).toList = Nat.toDigits 10 x.toNat from Nat.toList_repr]
    exact numeral_toDigits _
  have hl : ∀ (x y : U128) cols, Line ((toString x.toNat).toList ++ ',' :: cols) y.toNat ↔ x = y := by
    intro x y cols
    rw [line_comma (hn x).no_comma]
    constructor
    · rintro (h | h)
      · exact BitVec.eq_of_toNat_eq (natural_unique (hn x) h)
      · exact absurd h.1 (hn x).not_blank
    · rintro rfl; exact Or.inl (hn x)
  refine ⟨toSet (rows.map (·.1)), ((C93_file _).1 _).mpr ⟨rfl, ?_, toSet_sorted _, ?_⟩, toSet_sorted _, ?_⟩
  · intro t ht
    obtain ⟨r, _, rfl⟩ := List.mem_map.mp ht
    exact ⟨r.1, (hl _ _ _).mpr rfl⟩
  · intro x
    rw [toSet_mem, List.mem_map]
    constructor
    · rintro ⟨r, hr, rfl⟩; exact ⟨_, List.mem_map.mpr ⟨r, hr, rfl⟩, (hl _ _ _).mpr rfl⟩
    · rintro ⟨t, ht, h⟩
      obtain ⟨r, hr, rfl⟩ := List.mem_map.mp ht
      exact ⟨r, hr, (hl _ _ _).mp h⟩
  · intro x
    rw [toSet_mem, List.mem_map]
    constructor
    · rintro ⟨r, hr, rfl⟩; exact ⟨r.2, hr⟩
    · rintro ⟨cols, h⟩; exact ⟨_, h, rfl⟩

/-- C93_round_trip on three lines. -/
example : readUniqueValuesFromFile ⟨[((200 : U128), "x".toList), (13, []), (200, ",".toList)].map
    fun r => (toString r.1.toNat).toList ++ ',' :: r.2, true⟩ = ok [13, 200] := by decide +kernel

theorem check_cases (c : Prop) [Decidable c] : check c = ok () ∨ check c = crash := by
  unfold check; split <;> simp

theorem mapRes_crash_of {α β : Type} {f : α → Res β} {l : List α} (h : ∀ a ∈ l, f a = crash ∨ ∃ b, f a = ok b)
    (hx : ∃ a ∈ l, f a = crash) : mapRes f l = crash := by
  induction l with
  | nil => obtain ⟨a, h, _⟩ := hx; cases h
  | cons a l ih =>
    rw [mapRes]
    rcases h a (by simp) with e | ⟨b, e⟩
    · rw [e]
    · rw [e]
      have : mapRes f l = crash := ih (fun x hx => h x (by simp [hx])) (by
        obtain ⟨x, hx, e'⟩ := hx
        rcases List.mem_cons.mp hx with rfl | hx
        · rw [e] at e'; cases e'
        · exact ⟨x, hx, e'⟩)
      rw [this]

theorem mapRes_forall₂ {α β : Type} {f : α → Res β} {l : List α} {bs : List β} (h : bs.length = l.length)
    (hf : ∀ (i : Nat) a b, l[i]? = some a → bs[i]? = some b → f a = ok b) : mapRes f l = ok bs :=
  mapRes_eq_ok.mpr ⟨h, fun i h1 h2 => hf i _ _ (List.getElem?_eq_getElem h1) (List.getElem?_eq_getElem h2)⟩

theorem checked_total {α : Type} (o : Option α) : checked o = crash ∨ ∃ a, checked o = ok a := by
  cases o with
  | none => exact Or.inl rfl
  | some a => exact Or.inr ⟨a, rfl⟩

theorem validate_levels (P : Int → Prop) [DecidablePred P] : (texts : List Text) → (levels : List Int) →
    mapRes (fun text => checked (atoiInt text)) texts = ok levels →
    (mapRes (fun text => checked (atoiInt text) >>= fun level => check (P level)) texts >>= fun _ => ok ()) =
      check (∀ l ∈ levels, P l)
  | [], levels, h => by cases h; exact (check_true (by simp)).symm
  | t :: texts, levels, h => by
    rw [mapRes_cons] at h
    cases e : checked (atoiInt t) with
    | ok l =>
      rw [e] at h
      cases e' : mapRes (fun text => checked (atoiInt text)) texts with
      | ok ls =>
        rw [e'] at h
        cases h
        have ih := validate_levels P texts ls e'
        rw [mapRes_cons, e]
        show ((check (P l) >>= fun b => mapRes _ texts >>= fun bs => ok (b :: bs)) >>= fun _ => ok ()) = _
        by_cases hl : P l
        · rw [check_true hl]
          have : check (∀ x ∈ l :: ls, P x) = check (∀ x ∈ ls, P x) := by
            unfold check; simp [hl]
          rw [this, ← ih]
          show ((mapRes _ texts >>= fun bs => ok (() :: bs)) >>= fun _ => ok ()) = _
          cases mapRes (fun text => checked (atoiInt text) >>= fun level => check (P level)) texts <;> rfl
        · rw [check, if_neg hl, check, if_neg (by simp [hl])]; rfl
      | err c => rw [e'] at h; cases h
      | ub => rw [e'] at h; cases h
      | crash => rw [e'] at h; cases h
    | err c => rw [e] at h; cases h
    | ub => rw [e] at h; cases h
    | crash => rw [e] at h; cases h

theorem validateFlagTexts_eq (fl : FlagTexts) (levels : List Int) (input : Option (List U128))
    (hi : input.isSome = fl.input.isSome) (hl : mapRes (fun text => checked (atoiInt text)) fl.levels = ok levels) :
    validateFlagTexts fl =
      validateFlags ⟨fl.logDomainSize, fl.numIterations, fl.maxExpansionFactor, fl.onlyNonzeros, levels, input⟩ := by
  have e : (fl.onlyNonzeros = true → fl.input.isSome = true) ↔ (fl.onlyNonzeros = true → input ≠ none) := by
    rw [← hi, Option.isSome_iff_ne_none]
  rw [validateFlagTexts, validateFlags, validate_levels (fun level => 0 < level ∧ level ≤ fl.logDomainSize) _ _ hl]
  congr 1; funext _; congr 1; funext _
  congr 1
  unfold check; simp only [e]

theorem validateFlags_total (fl : Flags) : validateFlags fl = ok () ∨ validateFlags fl = crash := by
  unfold validateFlags check
  repeat' split
  all_goals simp [bind_ok]

/-- C93, program: if the texts write numbers, the program does what C75 says about these numbers. -/
theorem C93_main (D : Doubles) (fp : FpEnv) (env : Env) (fuel : Nat) (fl : FlagTexts) (fl' : Flags)
    (h : WritesFlags fl fl') (random seed0 seed1 : U128) :
    mainTexts D fp env fuel fl random seed0 seed1 = main D fp env fuel fl' random seed0 seed1 := by
  obtain ⟨l1, l2, l3, l4, l5, l6⟩ := h
  obtain ⟨log, it, f, only, levels, input⟩ := fl'
  dsimp only at l1 l2 l3 l4 l5 l6
  subst l1 l2 l3 l4
  have hl : mapRes (fun text => checked (atoiInt text)) fl.levels = ok levels :=
    mapRes_forall₂ l5.1 fun i a b ha hb => checked_ok.mpr ((atoiInt_iff a b).mpr (l5.2 i a b ha hb))
  have hv := validateFlagTexts_eq fl levels input (by
    revert l6; cases fl.input <;> cases input <;> simp) hl
  have hp : readPrefixTexts fl =
      ok (readPrefixes ⟨fl.logDomainSize, fl.numIterations, fl.maxExpansionFactor, fl.onlyNonzeros, levels, input⟩) := by
    revert l6
    rw [readPrefixTexts]
    cases fl.input with
    | none => cases input with
      | none => intro _; rfl
      | some xs => intro h; exact h.elim
    | some file => cases input with
      | none => intro h; exact h.elim
      | some xs =>
        rintro ⟨h1, h2, h3⟩
        have : readUniqueValuesFromFile file = ok (toSet xs) :=
          ((C93_file file).1 _).mpr ⟨h1, h2, toSet_sorted _, fun x => by rw [toSet_mem, h3]⟩
        dsimp only
        rw [this]; rfl
  rw [mainTexts]
  dsimp only
  rw [hp, hv, hl, main]
  rcases validateFlags_total
    ⟨fl.logDomainSize, fl.numIterations, fl.maxExpansionFactor, fl.onlyNonzeros, levels, input⟩ with e | e
  · rw [e]; rfl
  · rw [e]; rfl

/-- C93, program: if they do not, it is terminated. -/
theorem C93_rejects (D : Doubles) (fp : FpEnv) (env : Env) (fuel : Nat) (fl : FlagTexts)
    (h : ¬ ∃ fl', WritesFlags fl fl') (random seed0 seed1 : U128) :
    mainTexts D fp env fuel fl random seed0 seed1 = some crash := by
  have hlev : ∀ t ∈ fl.levels, checked (atoiInt t) = crash ∨ ∃ l, checked (atoiInt t) = ok l :=
    fun t _ => checked_total _
  by_cases hl : ∃ t ∈ fl.levels, checked (atoiInt t) = crash
  · have hv : validateFlagTexts fl = crash := by
      rw [validateFlagTexts, mapRes_crash_of (f := fun text => checked (atoiInt text) >>= fun level =>
        check (0 < level ∧ level ≤ fl.logDomainSize))]
      · unfold check
        repeat' split
        all_goals rfl
      · intro t ht
        rcases hlev t ht with e | ⟨l, e⟩
        · rw [e]; exact Or.inl rfl
        · rw [e]
          rcases check_cases (0 < l ∧ l ≤ fl.logDomainSize) with e | e
          · exact Or.inr ⟨(), e⟩
          · exact Or.inl e
      · obtain ⟨t, ht, e⟩ := hl
        exact ⟨t, ht, by rw [e]; rfl⟩
    rw [mainTexts, hv]; rfl
  · have hall : ∀ t ∈ fl.levels, checked (atoiInt t) = ok ((checked (atoiInt t)).getD 0) := by
      intro t ht
      rcases hlev t ht with e | ⟨l, e⟩
      · exact absurd ⟨t, ht, e⟩ hl
      · rw [e]; rfl
    have hm := mapRes_eq_ok_map hall
    obtain ⟨a1, a2⟩ := mapRes_eq_ok.mp hm
    cases hi : fl.input with
    | none =>
      refine absurd ⟨⟨fl.logDomainSize, fl.numIterations, fl.maxExpansionFactor, fl.onlyNonzeros, _, none⟩,
        rfl, rfl, rfl, rfl, ⟨a1, ?_⟩, by rw [hi]; trivial⟩ h
      intro i t l ht hl
      obtain ⟨h1, rfl⟩ := List.getElem?_eq_some_iff.mp ht
      obtain ⟨h2, rfl⟩ := List.getElem?_eq_some_iff.mp hl
      exact (atoiInt_iff _ _).mp (checked_ok.mp (a2 i h1 h2))
    | some file =>
      by_cases hf : file.ok = true ∧ ∀ t ∈ file.lines, ∃ x : U128, Line t x.toNat
      · refine absurd ⟨⟨fl.logDomainSize, fl.numIterations, fl.maxExpansionFactor, fl.onlyNonzeros, _,
          some (file.lines.map fun t => (readLine t).getD 0)⟩,
          rfl, rfl, rfl, rfl, ⟨a1, ?_⟩, by rw [hi]; refine ⟨hf.1, hf.2, ?_⟩; intro x; rw [List.mem_map]; exact
            ⟨fun ⟨t, ht, e⟩ => ⟨t, ht, by
              obtain ⟨y, hy⟩ := hf.2 t ht
              rw [(readLine_line t y).mpr hy] at e
              cases e; exact hy⟩, fun ⟨t, ht, e⟩ => ⟨t, ht, by rw [(readLine_line t x).mpr e]; rfl⟩⟩⟩ h
        intro i t l ht hl
        obtain ⟨h1, rfl⟩ := List.getElem?_eq_some_iff.mp ht
        obtain ⟨h2, rfl⟩ := List.getElem?_eq_some_iff.mp hl
        exact (atoiInt_iff _ _).mp (checked_ok.mp (a2 i h1 h2))
      · have hp : readPrefixTexts fl = crash := by
          rw [readPrefixTexts, hi]
          dsimp only
          rw [(C93_file file).2 hf]; rfl
        have hv := validateFlagTexts_eq fl _ (some []) (by rw [hi]; rfl) hm
        rw [mainTexts, hp, hv]
        dsimp only
        rcases validateFlags_total ⟨fl.logDomainSize, fl.numIterations, fl.maxExpansionFactor, fl.onlyNonzeros,
          fl.levels.map fun t => (checked (atoiInt t)).getD 0, some []⟩ with e | e
        · rw [e]; rfl
        · rw [e]; rfl

/-- Flags with two levels and a file of two lines. -/
def exFlagTexts : FlagTexts := ⟨8, 1, 4, false, ["4".toList, " +8".toList], some ⟨["200,1".toList, "7".toList], true⟩⟩

/-- C93_main applies to them. -/
theorem exFlagTexts_writes : WritesFlags exFlagTexts ⟨8, 1, 4, false, [4, 8], some [200, 7]⟩ := by
  refine ⟨rfl, rfl, rfl, rfl, ⟨rfl, ?_⟩, ?_⟩
  · have h : mapRes (fun text => checked (atoiInt text)) exFlagTexts.levels = ok [4, 8] := by decide +kernel
    intro i t l ht hl
    obtain ⟨h1, rfl⟩ := List.getElem?_eq_some_iff.mp ht
    obtain ⟨h2, rfl⟩ := List.getElem?_eq_some_iff.mp hl
    exact (atoiInt_iff _ _).mp (checked_ok.mp ((mapRes_eq_ok.mp h).2 i h1 h2))
  · have h : readUniqueValuesFromFile ⟨["200,1".toList, "7".toList], true⟩ = ok [7, 200] := by decide +kernel
    obtain ⟨h1, h2, _, h3⟩ := ((C93_file _).1 _).mp h
    refine ⟨h1, h2, fun x => ?_⟩
    rw [← h3]; simp [or_comm]

/-- C93_rejects applies to flags with a level that is not a number. -/
example : ¬ ∃ fl', WritesFlags { exFlagTexts with levels := ["4x".toList] } fl' := by
  rintro ⟨fl', h⟩
  obtain ⟨h1, h2⟩ := h.levels
  obtain ⟨l, hl⟩ : ∃ l, fl'.levels = [l] := List.length_eq_one_iff.mp h1
  have := (atoiInt_iff _ _).mpr (h2 0 "4x".toList l rfl (by rw [hl]; rfl))
  have e : atoiInt "4x".toList = none := by decide +kernel
  rw [e] at this; cases this

/-- C93 on examples: a line; flags; flags that are rejected. -/
example : Natural (firstColumn "12,3".toList) 12 := by
  have hb : ¬ Blank (firstColumn "12,3".toList) := by
    intro h
    have := h '1' (by decide +kernel)
    simp at this
  have h := ((C93_column_partial "12,3".toList hb).1 12).mp (by decide +kernel)
  simpa using h
example (D : Doubles) (fp : FpEnv) (env : Env) (random seed0 seed1 : U128) :
    mainTexts D fp env 8 exFlagTexts random seed0 seed1 =
      main D fp env 8 ⟨8, 1, 4, false, [4, 8], some [200, 7]⟩ random seed0 seed1 :=
  C93_main D fp env 8 _ _ exFlagTexts_writes random seed0 seed1
example (D : Doubles) (fp : FpEnv) (env : Env) (random seed0 seed1 : U128) :
    mainTexts D fp env 8 { exFlagTexts with levels := ["4x".toList] } random seed0 seed1 = some crash := by
  refine C93_rejects D fp env 8 _ ?_ random seed0 seed1
  rintro ⟨fl', h⟩
  obtain ⟨h1, h2⟩ := h.levels
  obtain ⟨l, hl⟩ : ∃ l, fl'.levels = [l] := List.length_eq_one_iff.mp h1
  have := (atoiInt_iff _ _).mpr (h2 0 "4x".toList l rfl (by rw [hl]; rfl))
  have e : atoiInt "4x".toList = none := by decide +kernel
  rw [e] at this; cases this

end Verif
