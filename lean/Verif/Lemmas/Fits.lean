import Verif.Lemmas.ValueTypes
/-! The bytes reserved by `BitsNeeded` suffice for types without nested tuples around `IntModN`. -/
namespace Verif
open Res

/-- Size in bytes of a described integer. -/
def ValueType.leafSize : ValueType → Nat
  | .integer b => (b / 8).toNat
  | .xorWrapper b => (b / 8).toNat
  | .intModN b _ => (b / 8).toNat
  | _ => 0

/-- Description of a non-tuple type. -/
def ValueType.FlatElt (el : ValueType) : Prop :=
  ∃ w : Width, el = .integer w.bits ∨ el = .xorWrapper w.bits ∨
    ∃ N, el = .intModN w.bits (uint128ToValueInteger N)

theorem Ty.isLeaf_flatElt : (t : Ty) → t.isLeaf = true →
    t.helper.toValueType.FlatElt ∧ t.leafBytes = t.helper.toValueType.leafSize ∧
    t.lastLeafBytes = t.helper.toValueType.leafSize
  | .uint w, _ => ⟨⟨w, Or.inl rfl⟩, by cases w <;> decide, by cases w <;> decide⟩
  | .intModN w N _ _, _ => ⟨⟨w, Or.inr (Or.inr ⟨N, rfl⟩)⟩, by cases w <;> rfl, by cases w <;> rfl⟩
  | .xorWrapper w, _ => ⟨⟨w, Or.inr (Or.inl rfl)⟩, by cases w <;> decide, by cases w <;> decide⟩
  | .tuple _, h => by simp [Ty.isLeaf] at h

theorem Tys.leaves_spec : (ts : Tys) → ts.leaves = true →
    (∀ el ∈ ts.helper.toValueTypes, el.FlatElt) ∧
    ts.leafBytes = (ts.helper.toValueTypes.map (·.leafSize)).sum ∧
    ∃ init last, ts.helper.toValueTypes = init ++ [last] ∧ ts.lastLeafBytes = last.leafSize
  | .one t, h => by
    have h := Ty.isLeaf_flatElt t h
    have e : (Tys.one t).helper.toValueTypes = [t.helper.toValueType] := rfl
    refine ⟨?_, ?_, [], t.helper.toValueType, rfl, h.2.2⟩
    · rw [e]; simpa using h.1
    · rw [e]; show t.leafBytes = _; simpa using h.2.1
  | .cons t ts, h => by
    simp only [Tys.leaves, Bool.and_eq_true] at h
    have h1 := Ty.isLeaf_flatElt t h.1
    obtain ⟨i1, i2, init, last, i3, i4⟩ := Tys.leaves_spec ts h.2
    have e : (Tys.cons t ts).helper.toValueTypes =
      t.helper.toValueType :: ts.helper.toValueTypes := rfl
    refine ⟨?_, ?_, t.helper.toValueType :: init, last, ?_, i4⟩
    · rw [e]; intro el hel
      simp only [List.mem_cons] at hel
      rcases hel with rfl | hel
      · exact h1.1
      · exact i1 el hel
    · rw [e]
      show t.leafBytes + ts.leafBytes = _
      simp [h1.2.1, i2]
    · rw [e, i3]; rfl

theorem ValueType.FlatElt.size {el : ValueType} (h : el.FlatElt) :
    1 ≤ el.leafSize ∧ el.leafSize ≤ 16 := by
  obtain ⟨w, rfl | rfl | ⟨N, rfl⟩⟩ := h <;> cases w <;> simp [ValueType.leafSize, Width.bits]

/-- Bytes counted by `BitsNeeded` for one element. -/
def ValueType.counted (el : ValueType) : Nat := if el.isMod then 16 else el.leafSize

theorem bitsNeeded_flatElt {fp : FpEnv} {el : ValueType} (h : el.FlatElt) {sec : Sec} {b : Int}
    (hb : bitsNeeded fp el sec = ok b) : b = 8 * (el.counted : Int) := by
  obtain ⟨w, rfl | rfl | ⟨N, rfl⟩⟩ := h
  · simp only [bitsNeeded, ok.injEq] at hb
    rw [← hb]
    cases w <;> simp [ValueType.counted, ValueType.isMod, ValueType.leafSize, Width.bits]
  · simp only [bitsNeeded, ok.injEq] at hb
    rw [← hb]
    cases w <;> simp [ValueType.counted, ValueType.isMod, ValueType.leafSize, Width.bits]
  · rw [bitsNeeded, valueInteger_roundtrip, bind_ok, bind_eq_ok] at hb
    obtain ⟨n, h1, h2⟩ := hb
    have := (getNumBytesRequired_ok h1).2.2.2
    simp only [ok.injEq] at h2
    simp [ValueType.counted, ValueType.isMod]
    omega

theorem bitsNeededFirst_flat {fp : FpEnv} {els : List ValueType} (h : ∀ el ∈ els, el.FlatElt)
    {n : Nat} {sec : Sec} {acc b : Int} (hb : bitsNeededFirst fp els n sec acc = ok b) :
    b = acc + 8 * (((els.take n).map (·.counted)).sum : Nat) := by
  induction els generalizing n acc b with
  | nil =>
    cases n with
    | zero => simp only [bitsNeededFirst, ok.injEq] at hb; simp [← hb]
    | succ n => simp [bitsNeededFirst] at hb
  | cons el els ih =>
    cases n with
    | zero => simp only [bitsNeededFirst, ok.injEq] at hb; simp [← hb]
    | succ n =>
      rw [bitsNeededFirst, bind_eq_ok] at hb
      obtain ⟨b1, h1, hb⟩ := hb
      rw [bind_eq_ok] at hb
      obtain ⟨b2, h2, hb⟩ := hb
      rw [intRange_eq_ok] at h2
      have e1 := bitsNeeded_flatElt (h el (by simp)) h1
      have e2 := ih (fun x hx => h x (by simp [hx])) hb
      simp only [List.take_succ_cons, List.map_cons, List.sum_cons]
      omega

/-- What the counting loop establishes. -/
theorem countTuple_flat {els : List ValueType} {im : Option ValueType} {a b : Nat}
    {im' : Option ValueType} {a' b' : Nat} (h : countTuple els im a b = ok (im', a', b'))
    (him : ∀ x, im = some x → x.isMod = true) :
    a' = a + els.countP (·.isMod) ∧ b' = b + els.countP (fun e => !e.isMod) ∧
    (∀ x, im = some x → im' = some x) ∧
    ∀ el ∈ els, el.isMod = true → ∃ x, im' = some x ∧ x.leafSize = el.leafSize := by
  induction els generalizing im a b with
  | nil =>
    simp only [countTuple, ok.injEq, Prod.mk.injEq] at h
    obtain ⟨rfl, rfl, rfl⟩ := h
    simp
  | cons el els ih =>
    cases hm : el.isMod with
    | false =>
      have hc : countTuple (el :: els) im a b = countTuple els im a (b + 1) := by
        cases el <;> simp [ValueType.isMod] at hm <;> rfl
      rw [hc] at h
      obtain ⟨h1, h2, h3, h4⟩ := ih h him
      refine ⟨by simp [hm, h1], by simp [hm, h2]; omega, h3, ?_⟩
      intro x hx hxm
      simp only [List.mem_cons] at hx
      rcases hx with rfl | hx
      · simp [hm] at hxm
      · exact h4 x hx hxm
    | true =>
      obtain ⟨c, m, rfl⟩ : ∃ c m, el = .intModN c m := by
        cases el <;> simp [ValueType.isMod] at hm
        exact ⟨_, _, rfl⟩
      cases im with
      | none =>
        have hc : countTuple (.intModN c m :: els) none a b =
          countTuple els (some (.intModN c m)) (a + 1) b := rfl
        rw [hc] at h
        obtain ⟨h1, h2, h3, h4⟩ := ih h (by simp [ValueType.isMod])
        refine ⟨by simp [ValueType.isMod, h1]; omega, by simp [ValueType.isMod, h2], by simp, ?_⟩
        intro x hx hxm
        simp only [List.mem_cons] at hx
        rcases hx with rfl | hx
        · exact ⟨_, h3 _ rfl, rfl⟩
        · exact h4 x hx hxm
      | some y =>
        have hc : countTuple (.intModN c m :: els) (some y) a b =
          (valueTypesAreEqual (.intModN c m) y >>= fun eq =>
            failIf (eq = false) .unimplemented >>= fun _ => countTuple els (some y) (a + 1) b) := rfl
        rw [hc, bind_eq_ok] at h
        obtain ⟨eq, he, h⟩ := h
        rw [bind_eq_ok] at h
        obtain ⟨_, hf, h⟩ := h
        rw [failIf_eq_ok] at hf
        obtain ⟨h1, h2, h3, h4⟩ := ih h him
        refine ⟨by simp [ValueType.isMod, h1]; omega, by simp [ValueType.isMod, h2], h3, ?_⟩
        intro x hx hxm
        simp only [List.mem_cons] at hx
        rcases hx with rfl | hx
        · refine ⟨y, h3 y rfl, ?_⟩
          have hy := him y rfl
          obtain ⟨c', m', rfl⟩ : ∃ c m, y = .intModN c m := by
            cases y <;> simp [ValueType.isMod] at hy
            exact ⟨_, _, rfl⟩
          rw [valueTypesAreEqual, bind_eq_ok] at he
          obtain ⟨m1, _, he⟩ := he
          rw [bind_eq_ok] at he
          obtain ⟨m2, _, he⟩ := he
          simp only [ok.injEq] at he
          simp only [Bool.not_eq_false] at hf
          rw [hf] at he
          simp only [Bool.and_eq_true, beq_iff_eq] at he
          simp [ValueType.leafSize, he.1]
        · exact h4 x hx hxm

/-- Sum of the sizes of the elements that are not `IntModN`. -/
def otherSum : List ValueType → Nat
  | [] => 0
  | el :: els => (if el.isMod then 0 else el.leafSize) + otherSum els

theorem otherSum_append (a b : List ValueType) : otherSum (a ++ b) = otherSum a + otherSum b := by
  induction a with
  | nil => simp [otherSum]
  | cons x a ih => simp [otherSum, ih]; omega

theorem otherSum_le (l : List ValueType) (h : ∀ el ∈ l, el.leafSize ≤ 16) :
    otherSum l ≤ 16 * l.countP (fun e => !e.isMod) := by
  induction l with
  | nil => simp [otherSum]
  | cons x l ih =>
    have := ih (fun el hel => h el (by simp [hel]))
    have hx := h x (by simp)
    simp only [otherSum, List.countP_cons]
    cases hm : x.isMod <;> simp <;> omega

theorem sum_leafSize (l : List ValueType) (m : Nat)
    (h : ∀ el ∈ l, el.isMod = true → el.leafSize = m) :
    (l.map (·.leafSize)).sum = m * l.countP (·.isMod) + otherSum l := by
  induction l with
  | nil => simp [otherSum]
  | cons x l ih =>
    have e := ih (fun el hel => h el (by simp [hel]))
    simp only [List.map_cons, List.sum_cons, otherSum, List.countP_cons, e]
    cases hm : x.isMod
    · simp; omega
    · have := h x (by simp) hm
      simp [this, Nat.mul_add]; omega

theorem sum_counted (l : List ValueType) :
    (l.map (·.counted)).sum = 16 * l.countP (·.isMod) + otherSum l := by
  induction l with
  | nil => simp [otherSum]
  | cons x l ih =>
    simp only [List.map_cons, List.sum_cons, otherSum, List.countP_cons, ih]
    unfold ValueType.counted
    cases hm : x.isMod <;> simp <;> omega

theorem flat_enough {els init : List ValueType} {last : ValueType} {m : Nat}
    (hels : els = init ++ [last]) (hflat : ∀ el ∈ els, el.FlatElt)
    (hm : ∀ el ∈ els, el.isMod = true → el.leafSize = m) (hm16 : m ≤ 16)
    (hpos : 0 < els.countP (·.isMod)) :
    (els.map (·.leafSize)).sum - last.leafSize ≤
      m * (els.countP (·.isMod) - 1) +
        ((els.take (els.countP fun e => !e.isMod)).map (·.counted)).sum := by
  generalize hn : (els.countP fun e => !e.isMod) = n
  have hlen : ∀ l : List ValueType,
      l.length = l.countP (·.isMod) + l.countP (fun e => !e.isMod) := by
    intro l
    induction l with
    | nil => rfl
    | cons x l ih =>
      simp only [List.length_cons, List.countP_cons]
      cases hx : x.isMod <;> simp <;> omega
  have hsplit := List.take_append_drop n els
  have c1 : els.countP (·.isMod) = (els.take n).countP (·.isMod) + (els.drop n).countP (·.isMod) := by
    rw [← List.countP_append, hsplit]
  have c2 : n = (els.take n).countP (fun e => !e.isMod) +
      (els.drop n).countP (fun e => !e.isMod) := by
    rw [← List.countP_append, hsplit, hn]
  have ho : otherSum els = otherSum (els.take n) + otherSum (els.drop n) := by
    rw [← otherSum_append, hsplit]
  have l0 := hlen els
  have l1 := hlen (els.take n)
  have hnle : n ≤ els.length := by omega
  have l1' : (els.take n).length = n := by simp; omega
  rw [sum_leafSize els m hm, sum_counted]
  have hk : (els.take n).countP (·.isMod) = (els.drop n).countP (fun e => !e.isMod) := by omega
  -- the last element lies in the dropped part
  have hnlt : n < els.length := by omega
  obtain ⟨d, hd⟩ : ∃ d, els.drop n = d ++ [last] := by
    refine ⟨init.drop n, ?_⟩
    have : n ≤ init.length := by rw [hels] at hnlt; simp at hnlt; omega
    rw [hels, List.drop_append_of_le_length this]
  have hd16 : ∀ el ∈ d, el.leafSize ≤ 16 := by
    intro el hel
    have : el ∈ els.drop n := by rw [hd]; simp [hel]
    exact (hflat el (List.mem_of_mem_drop this)).size.2
  have hdle := otherSum_le d hd16
  have hmul : m * els.countP (·.isMod) = m * (els.countP (·.isMod) - 1) + m := by
    rw [← Nat.mul_succ]; congr 1; omega
  have hlast : last ∈ els := by rw [hels]; simp
  rw [ho, hd, otherSum_append, hmul, hk, hd, List.countP_append]
  simp only [otherSum, List.countP_singleton]
  have hl16 := (hflat last hlast).size.2
  cases hx : last.isMod
  · simp; omega
  · have := hm last hlast hx
    simp; omega

theorem Ty.noMod_of_isLeaf : (t : Ty) → t.isLeaf = true → t.helper.toValueType.isMod = false →
    t.noMod = true
  | .uint _, _, _ => rfl
  | .xorWrapper _, _, _ => rfl
  | .intModN _ _ _ _, _, h => by simp [Ty.helper, intModNHelper, ValueType.isMod] at h
  | .tuple _, h, _ => by simp [Ty.isLeaf] at h

theorem Tys.noMod_of_leaves : (ts : Tys) → ts.leaves = true →
    (∀ el ∈ ts.helper.toValueTypes, el.isMod = false) → ts.noMod = true
  | .one t, h, h0 => Ty.noMod_of_isLeaf t h (h0 _ (by show _ ∈ [_]; simp))
  | .cons t ts, h, h0 => by
    simp only [Tys.leaves, Bool.and_eq_true] at h
    have h1 := Ty.noMod_of_isLeaf t h.1 (h0 _ (by show _ ∈ _ :: _; simp))
    have h2 := Tys.noMod_of_leaves ts h.2 (fun el hel => h0 el (by
      show el ∈ _ :: _; exact List.mem_cons_of_mem _ hel))
    simp [Tys.noMod, h1, h2]

/-- The reserved bits suffice for types without nesting. -/
theorem Ty.flat_bytesRead (fp : FpEnv) (t : Ty) (hf : t.flat = true) (sec : Sec) (b : Int)
    (hb : bitsNeeded fp t.helper.toValueType sec = ok b) (hn : t.noMod = false) :
    8 * (t.bytesRead : Int) ≤ b := by
  have hnn := (Ty.bitsNeeded_nonneg fp t sec b hb).2 hn
  unfold Ty.bytesRead
  rw [hn]
  simp only [Bool.false_eq_true, if_false]
  cases t with
  | uint w => simp [Ty.noMod] at hn
  | xorWrapper w => simp [Ty.noMod] at hn
  | intModN w N hp hl => simp [Ty.leafBytes, Ty.lastLeafBytes]; omega
  | tuple ts =>
    obtain ⟨h1, h2, init, last, h3, h4⟩ := Tys.leaves_spec ts hf
    have hb : bitsNeeded fp (.tuple ts.helper.toValueTypes) sec = ok b := hb
    rw [bitsNeeded, bind_eq_ok] at hb
    obtain ⟨⟨im, nMod, nOther⟩, hc, hb⟩ := hb
    simp only [bind_eq_ok] at hb
    obtain ⟨other, ho, mods, hmods, hb⟩ := hb
    rw [intRange_eq_ok] at hb
    obtain ⟨d1, d2, _, d4⟩ := countTuple_flat hc (by simp)
    simp only [Nat.zero_add] at d1 d2
    have hpos : 0 < ts.helper.toValueTypes.countP (·.isMod) := by
      rcases Nat.eq_zero_or_pos (ts.helper.toValueTypes.countP (·.isMod)) with h0 | h0
      · exfalso
        rw [List.countP_eq_zero] at h0
        have : ts.noMod = true := Tys.noMod_of_leaves ts hf (by simpa using h0)
        simp [Ty.noMod, this] at hn
      · exact h0
    obtain ⟨el, hel, helm⟩ := List.countP_pos_iff.mp hpos
    obtain ⟨x, hx, hxs⟩ := d4 el hel helm
    have hxm : x.isMod = true :=
      (countTuple_counts hc).2.2.2.2.2.1 (by simp) x hx
    obtain ⟨c, m, rfl⟩ : ∃ c m, x = .intModN c m := by
      cases x <;> simp [ValueType.isMod] at hxm
      exact ⟨_, _, rfl⟩
    subst hx
    simp only [bind_eq_ok] at hmods
    obtain ⟨modulus, _, nb, hnb, hmods⟩ := hmods
    rw [intRange_eq_ok] at hmods
    have hall : ∀ el ∈ ts.helper.toValueTypes, el.isMod = true →
        el.leafSize = (ValueType.intModN c m).leafSize := by
      intro e he hem
      obtain ⟨y, hy, hys⟩ := d4 e he hem
      simp only [Option.some.injEq] at hy
      rw [← hys, ← hy]
    have hsize := (h1 el hel).size
    have hel' := hall el hel helm
    have henough := flat_enough h3 h1 hall (by omega) hpos
    have hother := bitsNeededFirst_flat h1 ho
    obtain ⟨n1, n2, n3, n4⟩ := getNumBytesRequired_ok hnb
    -- c is a multiple of 8
    have hc8 : (c + 7) / 8 = ((ValueType.intModN c m).leafSize : Int) := by
      obtain ⟨w, rfl | rfl | ⟨N, rfl⟩⟩ := h1 el hel
      · simp [ValueType.isMod] at helm
      · simp [ValueType.isMod] at helm
      · simp only [ValueType.leafSize] at hel' ⊢
        have e8 : ∀ w : Width, ((w.bits : Int) / 8).toNat = w.bits / 8 := by
          intro w; cases w <;> decide
        rw [e8] at hel'
        obtain ⟨w', hw'⟩ : ∃ w' : Width, c = w'.bits := by
          -- the stored description is one of the elements
          have : ∀ (els : List ValueType) (a b : Nat) r, (∀ el ∈ els, el.FlatElt) →
              countTuple els none a b = ok (some (.intModN c m), r) → ∃ w' : Width, c = w'.bits := by
            intro els
            induction els with
            | nil => intro a b r _ h; simp [countTuple] at h
            | cons e els ih =>
              intro a b r he h
              cases e with
              | intModN c' m' =>
                have hcc : countTuple (.intModN c' m' :: els) none a b =
                  countTuple els (some (.intModN c' m')) (a + 1) b := rfl
                rw [hcc] at h
                have := (countTuple_flat (a' := r.1) (b' := r.2) h (by simp [ValueType.isMod])).2.2.1
                  _ rfl
                simp only [Option.some.injEq, ValueType.intModN.injEq] at this
                obtain ⟨w', h' | h' | ⟨N', h'⟩⟩ := he _ (List.mem_cons_self ..)
                · simp at h'
                · simp at h'
                · simp only [ValueType.intModN.injEq] at h'
                  exact ⟨w', by rw [this.1, h'.1]⟩
              | notSet => exact ih a (b + 1) r (fun x hx => he x (by simp [hx])) h
              | integer _ => exact ih a (b + 1) r (fun x hx => he x (by simp [hx])) h
              | tuple _ => exact ih a (b + 1) r (fun x hx => he x (by simp [hx])) h
              | xorWrapper _ => exact ih a (b + 1) r (fun x hx => he x (by simp [hx])) h
          exact this _ 0 0 _ h1 hc
        rw [hw']
        cases w' <;> simp [Width.bits]
    show 8 * ((16 + (ts.leafBytes - ts.lastLeafBytes) : Nat) : Int) ≤ b
    rw [h2, h4]
    rw [← d1, ← d2] at henough
    rw [hc8] at n4
    have hnm : ((nMod : Int) - 1) = ((nMod - 1 : Nat) : Int) := by omega
    rw [hnm] at n4
    have hprod : ((ValueType.intModN c m).leafSize : Int) * ((nMod - 1 : Nat) : Int) =
      (((ValueType.intModN c m).leafSize * (nMod - 1) : Nat) : Int) := by simp
    rw [hprod] at n4
    omega

end Verif
