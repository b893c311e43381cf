import Verif.Model.Hash
/-! Helper lemmas on `Res`, loops and buffers. -/
namespace Verif
open Res

@[simp] theorem failIf_true {c : Prop} [Decidable c] (h : c) (e : Code) : failIf c e = err e := by
  simp [failIf, h]
@[simp] theorem failIf_false {c : Prop} [Decidable c] (h : ¬c) (e : Code) : failIf c e = ok () := by
  simp [failIf, h]
theorem intRange_eq_ok {x y : Int} : intRange x = ok y ↔ (-2 ^ 31 ≤ x ∧ x < 2 ^ 31) ∧ x = y := by
  unfold intRange
  by_cases h : -2 ^ 31 ≤ x ∧ x < 2 ^ 31
  · rw [if_pos h]; simp only [ok.injEq, h, and_self, true_and]
  · rw [if_neg h]; simp only [h, false_and, reduceCtorEq]

theorem intRange_of {x : Int} (h0 : 0 ≤ x) (h : x < 2 ^ 31) : intRange x = ok x :=
  intRange_eq_ok.mpr ⟨⟨by omega, h⟩, rfl⟩

theorem failIf_eq_ok {c : Prop} [Decidable c] {e : Code} {u : Unit} :
    failIf c e = ok u ↔ ¬c := by
  unfold failIf; split <;> simp_all
theorem check_eq_ok {c : Prop} [Decidable c] {u : Unit} : check c = ok u ↔ c := by
  unfold check; split <;> simp_all
theorem check_true {c : Prop} [Decidable c] (h : c) : check c = ok () := by simp [check, h]

theorem rd_eq_ok {α : Type u} {l : List α} {i : Nat} {a : α} : rd l i = ok a ↔ l[i]? = some a := by
  unfold rd; cases l[i]? <;> simp
theorem rd_lt {α : Type u} {l : List α} {i : Nat} (h : i < l.length) : rd l i = ok l[i] := by
  simp [rd_eq_ok, h]
theorem rd_getD {α : Type u} {l : List α} {i : Nat} (h : i < l.length) (a : α) :
    rd l i = ok (l.getD i a) := by
  simp [rd_eq_ok, h]
theorem rdInt_natCast {α : Type u} (l : List α) (i : Nat) : rdInt l (i : Int) = rd l i := by
  simp [rdInt, Int.not_lt.mpr (Int.natCast_nonneg i)]
theorem rdInt_eq_ok {α : Type u} {l : List α} {i : Int} {a : α} :
    rdInt l i = ok a ↔ 0 ≤ i ∧ l[i.toNat]? = some a := by
  unfold rdInt; split
  · constructor
    · intro h; cases h
    · rintro ⟨h, _⟩; omega
  · rw [rd_eq_ok]; constructor
    · intro h; exact ⟨by omega, h⟩
    · intro h; exact h.2

@[simp] theorem mapRes_nil {α : Type u} {β : Type v} (f : α → Res β) : mapRes f [] = ok [] := rfl
theorem mapRes_cons {α β : Type u} (f : α → Res β) (a : α) (l : List α) :
    mapRes f (a :: l) = (f a >>= fun b => mapRes f l >>= fun bs => ok (b :: bs)) := by
  simp only [mapRes]
  cases f a <;> try rfl
  cases mapRes f l <;> rfl

theorem mapRes_eq_ok_map {α : Type u} {β : Type v} {f : α → Res β} {g : α → β} {l : List α}
    (h : ∀ a ∈ l, f a = ok (g a)) : mapRes f l = ok (l.map g) := by
  induction l with
  | nil => rfl
  | cons a l ih =>
    have h1 := h a (by simp)
    have h2 := ih (fun b hb => h b (by simp [hb]))
    simp [mapRes, h1, h2]

theorem mapRes_congr {α : Type u} {β : Type v} {f g : α → Res β} {l : List α}
    (h : ∀ a ∈ l, f a = g a) : mapRes f l = mapRes g l := by
  induction l with
  | nil => rfl
  | cons a l ih =>
    have h1 := h a (by simp)
    have h2 := ih (fun b hb => h b (by simp [hb]))
    simp [mapRes, h1, h2]

theorem mapRes_map {α : Type u} {β : Type v} {γ : Type w} (f : β → Res γ) (g : α → β) (l : List α) :
    mapRes f (l.map g) = mapRes (fun a => f (g a)) l := by
  induction l with
  | nil => rfl
  | cons a l ih => simp only [List.map_cons, mapRes, ih]

theorem mapRes_append {α β : Type u} (f : α → Res β) (l₁ l₂ : List α) :
    mapRes f (l₁ ++ l₂) = (mapRes f l₁ >>= fun a => mapRes f l₂ >>= fun b => ok (a ++ b)) := by
  induction l₁ with
  | nil => simp; cases mapRes f l₂ <;> rfl
  | cons a l ih =>
    rw [List.cons_append, mapRes_cons, ih, mapRes_cons]
    cases f a <;> try rfl
    simp only [bind_ok]
    cases mapRes f l <;> try rfl
    simp only [bind_ok]
    cases mapRes f l₂ <;> rfl

theorem mapRes_eq_ok {α : Type u} {β : Type v} {f : α → Res β} {l : List α} {bs : List β} :
    mapRes f l = ok bs ↔
      bs.length = l.length ∧ ∀ i (h : i < l.length) (h' : i < bs.length), f l[i] = ok bs[i] := by
  induction l generalizing bs with
  | nil => cases bs <;> simp [mapRes]
  | cons a l ih =>
    simp only [mapRes]
    cases hf : f a with
    | ok b =>
      cases hm : mapRes f l with
      | ok bs' =>
        simp only [ok.injEq]
        constructor
        · rintro rfl
          obtain ⟨h1, h2⟩ := ih.mp hm
          refine ⟨by simp [h1], ?_⟩
          intro i h h'
          cases i with
          | zero => simpa using hf
          | succ i => simpa using h2 i (by simpa using h) (by simpa using h')
        · rintro ⟨h1, h2⟩
          cases bs with
          | nil => simp at h1
          | cons c cs =>
            have e := h2 0 (by simp) (by simp)
            simp [hf] at e
            have : mapRes f l = ok cs := ih.mpr ⟨by simpa using h1, fun i h h' =>
              h2 (i + 1) (Nat.succ_lt_succ h) (Nat.succ_lt_succ h')⟩
            simp_all
      | _ =>
        simp only [reduceCtorEq, false_iff, not_and]
        intro h1 h2
        cases bs with
        | nil => simp at h1
        | cons c cs =>
          have : mapRes f l = ok cs := ih.mpr ⟨by simpa using h1, fun i h h' =>
            h2 (i + 1) (Nat.succ_lt_succ h) (Nat.succ_lt_succ h')⟩
          simp [hm] at this
    | _ =>
      simp only [reduceCtorEq, false_iff, not_and]
      intro h1 h2
      have e := h2 0 (by simp) (by cases bs <;> simp_all)
      simp [hf] at e

theorem mapRes_length {α : Type u} {β : Type v} {f : α → Res β} {l : List α} {bs : List β}
    (h : mapRes f l = ok bs) : bs.length = l.length := (mapRes_eq_ok.mp h).1

theorem mapRes_exists_of_ok {α : Type u} {β : Type v} {f : α → Res β} {l : List α} {bs : List β}
    (h : mapRes f l = ok bs) {a : α} (ha : a ∈ l) : ∃ b, f a = ok b := by
  obtain ⟨i, hi, rfl⟩ := List.getElem_of_mem ha
  have := mapRes_eq_ok.mp h
  exact ⟨_, this.2 i hi (by omega)⟩

theorem mapRes_mem {α : Type u} {β : Type v} {f : α → Res β} {l : List α} {bs : List β} (h : mapRes f l = ok bs) {b : β}
    (hb : b ∈ bs) : ∃ a ∈ l, f a = ok b := by
  obtain ⟨i, hi, rfl⟩ := List.getElem_of_mem hb
  obtain ⟨h1, h2⟩ := mapRes_eq_ok.mp h
  exact ⟨l[i]'(by omega), List.getElem_mem _, h2 i (by omega) hi⟩

/-- A loop that only checks. -/
theorem mapRes_unit_eq_ok {α : Type u} {f : α → Res Unit} {l : List α} :
    (∃ us, mapRes f l = ok us) ↔ ∀ a ∈ l, f a = ok () := by
  constructor
  · rintro ⟨us, h⟩ a ha
    obtain ⟨b, hb⟩ := mapRes_exists_of_ok h ha
    exact hb
  · intro h
    exact ⟨_, mapRes_eq_ok_map (g := fun _ => ()) h⟩

@[simp] theorem foldRes_nil {α : Type u} {σ : Type v} (f : σ → α → Res σ) (s : σ) :
    foldRes f s [] = ok s := rfl
theorem foldRes_cons {α σ : Type u} (f : σ → α → Res σ) (s : σ) (a : α) (l : List α) :
    foldRes f s (a :: l) = (f s a >>= fun s' => foldRes f s' l) := by
  simp only [foldRes]; cases f s a <;> rfl
theorem foldRes_cons_ok {α : Type u} {σ : Type v} {f : σ → α → Res σ} {s s' : σ} {a : α}
    {l : List α} (h : f s a = ok s') : foldRes f s (a :: l) = foldRes f s' l := by
  simp [foldRes, h]
theorem foldRes_append {α σ : Type u} (f : σ → α → Res σ) (s : σ) (l₁ l₂ : List α) :
    foldRes f s (l₁ ++ l₂) = (foldRes f s l₁ >>= fun s' => foldRes f s' l₂) := by
  induction l₁ generalizing s with
  | nil => rfl
  | cons a l ih =>
    rw [List.cons_append, foldRes_cons, foldRes_cons]
    cases f s a <;> try rfl
    simp only [bind_ok, ih]

theorem foldRes_map {α : Type u} {β : Type v} {σ : Type w} (f : σ → β → Res σ) (g : α → β) (s : σ)
    (l : List α) : foldRes f s (l.map g) = foldRes (fun s a => f s (g a)) s l := by
  induction l generalizing s with
  | nil => rfl
  | cons a l ih => simp only [List.map_cons, foldRes]; cases f s (g a) <;> simp [ih]

/-- Loop invariant rule for `for (i = 0; i < n; ++i)`. -/
theorem foldRes_range_inv {σ : Type u} {f : σ → Nat → Res σ} (inv : Nat → σ → Prop) {n : Nat}
    {s : σ} (h0 : inv 0 s)
    (hs : ∀ i s, i < n → inv i s → ∃ s', f s i = ok s' ∧ inv (i + 1) s') :
    ∃ s', foldRes f s (List.range n) = ok s' ∧ inv n s' := by
  suffices H : ∀ (l : List Nat) (k : Nat) (s : σ), l = (List.range' k (n - k)) → k ≤ n → inv k s →
      ∃ s', foldRes f s l = ok s' ∧ inv n s' by
    exact H _ 0 s (by simp [List.range_eq_range']) (by omega) h0
  intro l
  induction l with
  | nil =>
    intro k s hl hk hi
    have : n - k = 0 := by
      have := congrArg List.length hl; simpa using this.symm
    have : n = k := by omega
    subst this
    exact ⟨s, rfl, hi⟩
  | cons a l ih =>
    intro k s hl hk hi
    have hnk : n - k = l.length + 1 := by
      have := congrArg List.length hl; simpa using this.symm
    rw [hnk, List.range'_succ] at hl
    obtain ⟨rfl, hl⟩ := List.cons.inj hl
    obtain ⟨s', e, hi'⟩ := hs a s (by omega) hi
    obtain ⟨s'', e', hi''⟩ := ih (a + 1) s' (by
      rw [hl]; congr 1; omega) (by omega) hi'
    exact ⟨s'', by simp [foldRes, e, e'], hi''⟩

theorem slice_eq_ok {α : Type} {l : List α} {start n : Nat} (h : start + n ≤ l.length) :
    slice l start n = ok ((l.drop start).take n) := by simp [slice, h]
theorem writeAt_eq_ok {α : Type} {l : List α} {start : Nat} {vals : List α}
    (h : start + vals.length ≤ l.length) :
    writeAt l start vals = ok (l.take start ++ vals ++ l.drop (start + vals.length)) := by
  simp [writeAt, h]

theorem shr128_ok {x : U128} {n : Nat} (h : n < 128) : shr128 x (n : Int) = ok (x >>> n) := by
  unfold shr128; rw [if_neg (by omega)]; simp
theorem shl128_ok {x : U128} {n : Nat} (h : n < 128) : shl128 x (n : Int) = ok (x <<< n) := by
  unfold shl128; rw [if_neg (by omega)]; simp

/-- Neither undefined nor a crash nor another code. -/
def OkOrInvalid {α : Type} (x : Res α) : Prop := (∃ a, x = ok a) ∨ x = err .invalidArgument

theorem OkOrInvalid.bind {α β : Type} {x : Res α} {f : α → Res β} (h : OkOrInvalid x)
    (hf : ∀ a, x = ok a → OkOrInvalid (f a)) : OkOrInvalid (x >>= f) := by
  rcases h with ⟨a, rfl⟩ | rfl
  · exact hf a rfl
  · exact Or.inr rfl

theorem OkOrInvalid.failIf (c : Prop) [Decidable c] :
    OkOrInvalid (failIf c .invalidArgument) := by
  unfold Verif.failIf; split
  · exact Or.inr rfl
  · exact Or.inl ⟨_, rfl⟩

theorem OkOrInvalid.ok {α : Type} (a : α) : OkOrInvalid (ok a) := Or.inl ⟨a, rfl⟩

end Verif
