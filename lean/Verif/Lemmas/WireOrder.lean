import Verif.Lemmas.WireKeys
/-!
# Order of the fields and unknown fields
-/
namespace Verif.Wire
open Verif Spec

/-- Fields outside `known` are ignored. -/
def Ignores {σ : Type} (known : List Nat) (f : σ → Record → Option σ) : Prop :=
  ∀ r : Record, r.1 ∉ known → ∀ s, f s r = some s

/-- The order of two records of different fields does not matter. -/
def Commutes {σ : Type} (f : σ → Record → Option σ) : Prop :=
  ∀ r r' : Record, r.1 ≠ r'.1 → ∀ s, ((f s r).bind fun s => f s r') = (f s r').bind fun s => f s r

variable {σ : Type} {known : List Nat} {f : σ → Record → Option σ}

theorem foldRecords_filter (hi : Ignores known f) (rs : List Record) (s : σ) :
    foldRecords f s (rs.filter fun r => r.1 ∈ known) = foldRecords f s rs := by
  induction rs generalizing s with
  | nil => rfl
  | cons r rs ih =>
    by_cases h : r.1 ∈ known
    · rw [List.filter_cons_of_pos (by simpa using h), foldRecords, foldRecords]
      congr 1
      funext s
      exact ih s
    · rw [List.filter_cons_of_neg (by simpa using h), foldRecords, hi r h, ih]
      rfl

theorem foldRecords_same (hi : Ignores known f) {rs rs' : List Record} (h : SameRecords known rs rs') (s : σ) :
    foldRecords f s rs = foldRecords f s rs' := by
  rw [← foldRecords_filter hi rs, ← foldRecords_filter hi rs', h]

theorem foldRecords_front (hc : Commutes f) (r : Record) (b : List Record) :
    ∀ (a : List Record), (∀ x ∈ a, x.1 ≠ r.1) → ∀ s, foldRecords f s (a ++ r :: b) = foldRecords f s (r :: (a ++ b)) := by
  intro a
  induction a with
  | nil => intro _ s; rfl
  | cons x a ih =>
    intro h s
    have e1 : foldRecords f s (x :: a ++ r :: b) = (f s x).bind fun s => foldRecords f s (a ++ r :: b) := rfl
    have e2 : foldRecords f s (r :: (x :: a ++ b)) =
        ((f s r).bind fun s => f s x).bind fun s => foldRecords f s (a ++ b) := by
      rw [Option.bind_assoc]; rfl
    rw [e1, e2, hc r x (h x (by simp)).symm, Option.bind_assoc]
    congr 1
    funext s
    exact ih (fun x hx => h x (by simp [hx])) s

theorem foldRecords_order_known (hc : Commutes f) : ∀ (rs rs' : List Record), (∀ r ∈ rs, r.1 ∈ known) →
    (∀ r ∈ rs', r.1 ∈ known) → SameFields known rs rs' → ∀ s, foldRecords f s rs = foldRecords f s rs' := by
  intro rs
  induction rs with
  | nil =>
    intro rs' _ hk' h s
    cases rs' with
    | nil => rfl
    | cons r t =>
      have := h r.1 (hk' r (by simp))
      simp at this
  | cons r t ih =>
    intro rs' hk hk' h s
    have hr := h r.1 (hk r (by simp))
    rw [List.filter_cons_of_pos (by simp)] at hr
    obtain ⟨a, b, rfl, ha, _, hb⟩ := List.filter_eq_cons_iff.mp hr.symm
    have ha' : ∀ x ∈ a, x.1 ≠ r.1 := fun x hx e => ha x hx (by simpa using e)
    rw [foldRecords_front hc r b a ha']
    have hs : SameFields known t (a ++ b) := by
      intro i hi
      have h1 := h i hi
      by_cases e : r.1 = i
      · subst e
        rw [List.filter_append, hb]
        have : a.filter (fun x => x.1 = r.1) = [] := List.filter_eq_nil_iff.mpr fun x hx => by simpa using ha' x hx
        rw [this]
        rfl
      · rw [List.filter_cons_of_neg (by simpa using e), List.filter_append, List.filter_cons_of_neg (by simpa using e)] at h1
        rw [List.filter_append, h1]
    rw [foldRecords, foldRecords]
    congr 1
    funext s
    exact ih (a ++ b) (fun x hx => hk x (by simp [hx]))
      (fun x hx => hk' x (by rcases List.mem_append.mp hx with h | h <;> simp [h])) hs s

theorem foldRecords_order (hi : Ignores known f) (hc : Commutes f) {rs rs' : List Record}
    (h : SameFields known rs rs') (s : σ) : foldRecords f s rs = foldRecords f s rs' := by
  rw [← foldRecords_filter hi rs, ← foldRecords_filter hi rs']
  refine foldRecords_order_known (known := known) hc _ _ (fun r hr => by simpa using (List.mem_filter.mp hr).2)
    (fun r hr => by simpa using (List.mem_filter.mp hr).2) ?_ s
  intro i hk
  have e : ∀ l : List Record, (l.filter fun r => r.1 ∈ known).filter (fun r => r.1 = i) = l.filter fun r => r.1 = i := by
    intro l
    rw [List.filter_filter]
    refine List.filter_congr fun r _ => ?_
    by_cases h : r.1 = i
    · simp [h, hk]
    · simp [h]
  rw [e, e]
  exact h i hk

theorem commutes_single {i : Nat} (hi : Ignores [i] f) : Commutes f := by
  intro r r' h s
  by_cases e : r.1 = i
  · have : ∀ s, f s r' = some s := hi r' (by simp; omega)
    simp [this]
  · have : ∀ s, f s r = some s := hi r (by simpa using e)
    simp [this]

theorem merge_same (hi : Ignores known f) {rs rs' : List Record} (hr : Sendable rs) (hr' : Sendable rs')
    (h : SameRecords known rs rs') (s : σ) : merge f s (wire rs) = merge f s (wire rs') := by
  rw [merge_wire f s hr.fits hr.short, merge_wire f s hr'.fits hr'.short, foldRecords_same hi h]

theorem merge_order (hi : Ignores known f) (hc : Commutes f) {rs rs' : List Record} (hr : Sendable rs)
    (hr' : Sendable rs') (h : SameFields known rs rs') (s : σ) : merge f s (wire rs) = merge f s (wire rs') := by
  rw [merge_wire f s hr.fits hr.short, merge_wire f s hr'.fits hr'.short, foldRecords_order hi hc h]

/-! ## The messages -/

/-- Closes the cases of two records of different fields. -/
macro "commute" : tactic => `(tactic| first
  | simp; done
  | (ext a
     simp only [Option.bind_eq_some_iff, Option.map_eq_some_iff, Option.bind_some, Option.some.injEq]
     constructor
     · first
       | (rintro ⟨_, ⟨x, hx, h1⟩, y, hy, h2⟩; subst h1; subst h2; exact ⟨_, ⟨y, hy, rfl⟩, x, hx, rfl⟩)
       | (rintro ⟨_, ⟨x, hx, h1⟩, h2⟩; subst h1; subst h2; exact ⟨x, hx, rfl⟩)
       | (rintro ⟨x, hx, h1⟩; subst h1; exact ⟨_, ⟨x, hx, rfl⟩, rfl⟩)
     · first
       | (rintro ⟨_, ⟨x, hx, h1⟩, y, hy, h2⟩; subst h1; subst h2; exact ⟨_, ⟨y, hy, rfl⟩, x, hx, rfl⟩)
       | (rintro ⟨_, ⟨x, hx, h1⟩, h2⟩; subst h1; subst h2; exact ⟨x, hx, rfl⟩)
       | (rintro ⟨x, hx, h1⟩; subst h1; exact ⟨_, ⟨x, hx, rfl⟩, rfl⟩)))

theorem block_ignores : Ignores [1, 2] blockField := by
  rintro ⟨i, p⟩ h s
  unfold blockField
  split <;> simp_all

theorem block_commutes : Commutes blockField := by
  have hx : ∀ r : Record, (∃ x, r = (1, .varint x)) ∨ (∃ x, r = (2, .varint x)) ∨
      ∀ s, blockField s r = some s := by
    rintro ⟨i, p⟩
    by_cases h : ∀ s, blockField s (i, p) = some s
    · simp [h]
    · unfold blockField at h
      split at h <;> simp_all
  intro r r' h s
  rcases hx r with ⟨n, rfl⟩ | ⟨n, rfl⟩ | hr <;>
    rcases hx r' with ⟨m, rfl⟩ | ⟨m, rfl⟩ | hr' <;> first
    | exact absurd rfl h
    | (simp [hr]; done)
    | (simp [hr']; done)
    | (simp [blockField, high64_makeU128, low64_makeU128]; done)

theorem modType_ignores (limit : Nat) : Ignores [1, 2] (modTypeField limit) := by
  rintro ⟨i, p⟩ h s
  unfold modTypeField
  split <;> simp_all

theorem modType_commutes (limit : Nat) : Commutes (modTypeField limit) := by
  have hx : ∀ r : Record, (∃ x, r = (1, .bytes x)) ∨ (∃ x, r = (2, .bytes x)) ∨
      ∀ s, modTypeField limit s r = some s := by
    rintro ⟨i, p⟩
    by_cases h : ∀ s, modTypeField limit s (i, p) = some s
    · simp [h]
    · unfold modTypeField at h
      split at h <;> simp_all
  intro r r' h s
  rcases hx r with ⟨n, rfl⟩ | ⟨n, rfl⟩ | hr <;>
    rcases hx r' with ⟨m, rfl⟩ | ⟨m, rfl⟩ | hr' <;> first
    | exact absurd rfl h
    | (simp [hr]; done)
    | (simp [hr']; done)
    | (by_cases hl : limit = 0
       · simp [modTypeField, hl]
       · simp only [modTypeField, if_neg hl]
         commute)

theorem word_ignores (limit : Nat) : Ignores [1, 2, 3, 5] (wordField limit) := by
  rintro ⟨i, p⟩ h s
  unfold wordField
  split <;> simp_all

theorem word_commutes (limit : Nat) : Commutes (wordField limit) := by
  have hx : ∀ r : Record, (∃ x, r = (1, .bytes x)) ∨ (∃ x, r = (2, .varint x)) ∨ (∃ x, r = (3, .varint x)) ∨ (∃ x, r = (5, .bytes x)) ∨
      ∀ s, wordField limit s r = some s := by
    rintro ⟨i, p⟩
    by_cases h : ∀ s, wordField limit s (i, p) = some s
    · simp [h]
    · unfold wordField at h
      split at h <;> simp_all
  intro r r' h s
  rcases hx r with ⟨n, rfl⟩ | ⟨n, rfl⟩ | ⟨n, rfl⟩ | ⟨n, rfl⟩ | hr <;>
    rcases hx r' with ⟨m, rfl⟩ | ⟨m, rfl⟩ | ⟨m, rfl⟩ | ⟨m, rfl⟩ | hr' <;> first
    | exact absurd rfl h
    | (simp [hr]; done)
    | (simp [hr']; done)
    | (by_cases hl : limit = 0
       · simp [wordField, hl]
       · simp only [wordField, if_neg hl]
         commute)

theorem key_ignores (limit : Nat) : Ignores [1, 2, 3, 5] (keyField limit) := by
  rintro ⟨i, p⟩ h s
  unfold keyField
  split <;> simp_all

theorem key_commutes (limit : Nat) : Commutes (keyField limit) := by
  have hx : ∀ r : Record, (∃ x, r = (1, .bytes x)) ∨ (∃ x, r = (2, .bytes x)) ∨ (∃ x, r = (3, .varint x)) ∨ (∃ x, r = (5, .bytes x)) ∨
      ∀ s, keyField limit s r = some s := by
    rintro ⟨i, p⟩
    by_cases h : ∀ s, keyField limit s (i, p) = some s
    · simp [h]
    · unfold keyField at h
      split at h <;> simp_all
  intro r r' h s
  rcases hx r with ⟨n, rfl⟩ | ⟨n, rfl⟩ | ⟨n, rfl⟩ | ⟨n, rfl⟩ | hr <;>
    rcases hx r' with ⟨m, rfl⟩ | ⟨m, rfl⟩ | ⟨m, rfl⟩ | ⟨m, rfl⟩ | hr' <;> first
    | exact absurd rfl h
    | (simp [hr]; done)
    | (simp [hr']; done)
    | (by_cases hl : limit = 0
       · simp [keyField, hl]
       · simp only [keyField, if_neg hl]
         commute)

theorem parameters_ignores (d : DoubleBits) (limit : Nat) : Ignores [1, 3, 4] (parametersField d limit) := by
  rintro ⟨i, p⟩ h s
  unfold parametersField
  split <;> simp_all

theorem parameters_commutes (d : DoubleBits) (limit : Nat) : Commutes (parametersField d limit) := by
  have hx : ∀ r : Record, (∃ x, r = (1, .varint x)) ∨ (∃ x, r = (3, .bytes x)) ∨ (∃ x, r = (4, .fixed64 x)) ∨
      ∀ s, parametersField d limit s r = some s := by
    rintro ⟨i, p⟩
    by_cases h : ∀ s, parametersField d limit s (i, p) = some s
    · simp [h]
    · unfold parametersField at h
      split at h <;> simp_all
  intro r r' h s
  rcases hx r with ⟨n, rfl⟩ | ⟨n, rfl⟩ | ⟨n, rfl⟩ | hr <;>
    rcases hx r' with ⟨m, rfl⟩ | ⟨m, rfl⟩ | ⟨m, rfl⟩ | hr' <;> first
    | exact absurd rfl h
    | (simp [hr]; done)
    | (simp [hr']; done)
    | (by_cases hl : limit = 0
       · simp [parametersField, hl]
       · simp only [parametersField, if_neg hl]
         commute)

theorem partial_ignores (limit : Nat) : Ignores [1, 2, 3] (partialField limit) := by
  rintro ⟨i, p⟩ h s
  unfold partialField
  split <;> simp_all

theorem partial_commutes (limit : Nat) : Commutes (partialField limit) := by
  have hx : ∀ r : Record, (∃ x, r = (1, .bytes x)) ∨ (∃ x, r = (2, .bytes x)) ∨ (∃ x, r = (3, .varint x)) ∨
      ∀ s, partialField limit s r = some s := by
    rintro ⟨i, p⟩
    by_cases h : ∀ s, partialField limit s (i, p) = some s
    · simp [h]
    · unfold partialField at h
      split at h <;> simp_all
  intro r r' h s
  rcases hx r with ⟨n, rfl⟩ | ⟨n, rfl⟩ | ⟨n, rfl⟩ | hr <;>
    rcases hx r' with ⟨m, rfl⟩ | ⟨m, rfl⟩ | ⟨m, rfl⟩ | hr' <;> first
    | exact absurd rfl h
    | (simp [hr]; done)
    | (simp [hr']; done)
    | (by_cases hl : limit = 0
       · simp [partialField, hl]
       · simp only [partialField, if_neg hl]
         commute)

theorem context_ignores (d : DoubleBits) (limit : Nat) : Ignores [1, 2, 3, 4, 5] (contextField d limit) := by
  rintro ⟨i, p⟩ h s
  unfold contextField
  split <;> simp_all

theorem context_commutes (d : DoubleBits) (limit : Nat) : Commutes (contextField d limit) := by
  have hx : ∀ r : Record, (∃ x, r = (1, .bytes x)) ∨ (∃ x, r = (2, .bytes x)) ∨ (∃ x, r = (3, .varint x)) ∨ (∃ x, r = (4, .bytes x)) ∨ (∃ x, r = (5, .varint x)) ∨
      ∀ s, contextField d limit s r = some s := by
    rintro ⟨i, p⟩
    by_cases h : ∀ s, contextField d limit s (i, p) = some s
    · simp [h]
    · unfold contextField at h
      split at h <;> simp_all
  intro r r' h s
  rcases hx r with ⟨n, rfl⟩ | ⟨n, rfl⟩ | ⟨n, rfl⟩ | ⟨n, rfl⟩ | ⟨n, rfl⟩ | hr <;>
    rcases hx r' with ⟨m, rfl⟩ | ⟨m, rfl⟩ | ⟨m, rfl⟩ | ⟨m, rfl⟩ | ⟨m, rfl⟩ | hr' <;> first
    | exact absurd rfl h
    | (simp [hr]; done)
    | (simp [hr']; done)
    | (by_cases hl : limit = 0
       · simp [contextField, hl]
       · simp only [contextField, if_neg hl]
         commute)

theorem micKey_ignores (limit : Nat) : Ignores [1, 2] (micKeyField limit) := by
  rintro ⟨i, p⟩ h s
  unfold micKeyField
  split <;> simp_all

theorem micKey_commutes (limit : Nat) : Commutes (micKeyField limit) := by
  have hx : ∀ r : Record, (∃ x, r = (1, .bytes x)) ∨ (∃ x, r = (2, .bytes x)) ∨
      ∀ s, micKeyField limit s r = some s := by
    rintro ⟨i, p⟩
    by_cases h : ∀ s, micKeyField limit s (i, p) = some s
    · simp [h]
    · unfold micKeyField at h
      split at h <;> simp_all
  intro r r' h s
  rcases hx r with ⟨n, rfl⟩ | ⟨n, rfl⟩ | hr <;>
    rcases hx r' with ⟨m, rfl⟩ | ⟨m, rfl⟩ | hr' <;> first
    | exact absurd rfl h
    | (simp [hr]; done)
    | (simp [hr']; done)
    | (by_cases hl : limit = 0
       · simp [micKeyField, hl]
       · simp only [micKeyField, if_neg hl]
         commute)

theorem interval_ignores (limit : Nat) : Ignores [1, 2] (intervalField limit) := by
  rintro ⟨i, p⟩ h s
  unfold intervalField
  split <;> simp_all

theorem interval_commutes (limit : Nat) : Commutes (intervalField limit) := by
  have hx : ∀ r : Record, (∃ x, r = (1, .bytes x)) ∨ (∃ x, r = (2, .bytes x)) ∨
      ∀ s, intervalField limit s r = some s := by
    rintro ⟨i, p⟩
    by_cases h : ∀ s, intervalField limit s (i, p) = some s
    · simp [h]
    · unfold intervalField at h
      split at h <;> simp_all
  intro r r' h s
  rcases hx r with ⟨n, rfl⟩ | ⟨n, rfl⟩ | hr <;>
    rcases hx r' with ⟨m, rfl⟩ | ⟨m, rfl⟩ | hr' <;> first
    | exact absurd rfl h
    | (simp [hr]; done)
    | (simp [hr']; done)
    | (by_cases hl : limit = 0
       · simp [intervalField, hl]
       · simp only [intervalField, if_neg hl]
         commute)

theorem micParameters_ignores (limit : Nat) : Ignores [1, 2] (micParametersField limit) := by
  rintro ⟨i, p⟩ h s
  unfold micParametersField
  split <;> simp_all

theorem micParameters_commutes (limit : Nat) : Commutes (micParametersField limit) := by
  have hx : ∀ r : Record, (∃ x, r = (1, .varint x)) ∨ (∃ x, r = (2, .bytes x)) ∨
      ∀ s, micParametersField limit s r = some s := by
    rintro ⟨i, p⟩
    by_cases h : ∀ s, micParametersField limit s (i, p) = some s
    · simp [h]
    · unfold micParametersField at h
      split at h <;> simp_all
  intro r r' h s
  rcases hx r with ⟨n, rfl⟩ | ⟨n, rfl⟩ | hr <;>
    rcases hx r' with ⟨m, rfl⟩ | ⟨m, rfl⟩ | hr' <;> first
    | exact absurd rfl h
    | (simp [hr]; done)
    | (simp [hr']; done)
    | (by_cases hl : limit = 0
       · simp [micParametersField, hl]
       · simp only [micParametersField, if_neg hl]
         commute)

theorem plain_ignores (limit : Nat) : Ignores [1, 2] (plainField limit) := by
  rintro ⟨i, p⟩ h s
  unfold plainField
  split <;> simp_all

theorem plain_commutes (limit : Nat) : Commutes (plainField limit) := by
  have hx : ∀ r : Record, (∃ x, r = (1, .bytes x)) ∨ (∃ x, r = (2, .fixed32 x)) ∨
      ∀ s, plainField limit s r = some s := by
    rintro ⟨i, p⟩
    by_cases h : ∀ s, plainField limit s (i, p) = some s
    · simp [h]
    · unfold plainField at h
      split at h <;> simp_all
  intro r r' h s
  rcases hx r with ⟨n, rfl⟩ | ⟨n, rfl⟩ | hr <;>
    rcases hx r' with ⟨m, rfl⟩ | ⟨m, rfl⟩ | hr' <;> first
    | exact absurd rfl h
    | (simp [hr]; done)
    | (simp [hr']; done)
    | (by_cases hl : limit = 0
       · simp [plainField, hl]
       · simp only [plainField, if_neg hl]
         commute)

theorem helper_ignores (limit : Nat) : Ignores [1, 2] (helperField limit) := by
  rintro ⟨i, p⟩ h s
  unfold helperField
  split <;> simp_all

theorem helper_commutes (limit : Nat) : Commutes (helperField limit) := by
  have hx : ∀ r : Record, (∃ x, r = (1, .bytes x)) ∨ (∃ x, r = (2, .bytes x)) ∨
      ∀ s, helperField limit s r = some s := by
    rintro ⟨i, p⟩
    by_cases h : ∀ s, helperField limit s (i, p) = some s
    · simp [h]
    · unfold helperField at h
      split at h <;> simp_all
  intro r r' h s
  rcases hx r with ⟨n, rfl⟩ | ⟨n, rfl⟩ | hr <;>
    rcases hx r' with ⟨m, rfl⟩ | ⟨m, rfl⟩ | hr' <;> first
    | exact absurd rfl h
    | (simp [hr]; done)
    | (simp [hr']; done)
    | (by_cases hl : limit = 0
       · simp [helperField, hl]
       · simp only [helperField, if_neg hl]
         commute)

theorem leader_ignores (limit : Nat) : Ignores [1, 2] (leaderField limit) := by
  rintro ⟨i, p⟩ h s
  unfold leaderField
  split <;> simp_all

theorem leader_commutes (limit : Nat) : Commutes (leaderField limit) := by
  have hx : ∀ r : Record, (∃ x, r = (1, .bytes x)) ∨ (∃ x, r = (2, .bytes x)) ∨
      ∀ s, leaderField limit s r = some s := by
    rintro ⟨i, p⟩
    by_cases h : ∀ s, leaderField limit s (i, p) = some s
    · simp [h]
    · unfold leaderField at h
      split at h <;> simp_all
  intro r r' h s
  rcases hx r with ⟨n, rfl⟩ | ⟨n, rfl⟩ | hr <;>
    rcases hx r' with ⟨m, rfl⟩ | ⟨m, rfl⟩ | hr' <;> first
    | exact absurd rfl h
    | (simp [hr]; done)
    | (simp [hr']; done)
    | (by_cases hl : limit = 0
       · simp [leaderField, hl]
       · simp only [leaderField, if_neg hl]
         commute)

theorem hashConfig_ignores : Ignores [1, 2] hashConfigField := by
  rintro ⟨i, p⟩ h s
  unfold hashConfigField
  split <;> simp_all

theorem hashConfig_commutes : Commutes hashConfigField := by
  have hx : ∀ r : Record, (∃ x, r = (1, .varint x)) ∨ (∃ x, r = (2, .varint x)) ∨
      ∀ s, hashConfigField s r = some s := by
    rintro ⟨i, p⟩
    by_cases h : ∀ s, hashConfigField s (i, p) = some s
    · simp [h]
    · unfold hashConfigField at h
      split at h <;> simp_all
  intro r r' h s
  rcases hx r with ⟨n, rfl⟩ | ⟨n, rfl⟩ | hr <;>
    rcases hx r' with ⟨m, rfl⟩ | ⟨m, rfl⟩ | hr' <;> first
    | exact absurd rfl h
    | (simp [hr]; done)
    | (simp [hr']; done)
    | (simp [hashConfigField]; done)

theorem family_ignores : Ignores [1, 2] familyField := by
  rintro ⟨i, p⟩ h s
  unfold familyField
  split <;> simp_all

theorem family_commutes : Commutes familyField := by
  have hx : ∀ r : Record, (∃ x, r = (1, .varint x)) ∨ (∃ x, r = (2, .bytes x)) ∨
      ∀ s, familyField s r = some s := by
    rintro ⟨i, p⟩
    by_cases h : ∀ s, familyField s (i, p) = some s
    · simp [h]
    · unfold familyField at h
      split at h <;> simp_all
  intro r r' h s
  rcases hx r with ⟨n, rfl⟩ | ⟨n, rfl⟩ | hr <;>
    rcases hx r' with ⟨m, rfl⟩ | ⟨m, rfl⟩ | hr' <;> first
    | exact absurd rfl h
    | (simp [hr]; done)
    | (simp [hr']; done)
    | (simp [familyField]; done)

theorem cuckoo_ignores (limit : Nat) : Ignores [1, 2, 3] (cuckooField limit) := by
  rintro ⟨i, p⟩ h s
  unfold cuckooField
  split <;> simp_all

theorem cuckoo_commutes (limit : Nat) : Commutes (cuckooField limit) := by
  have hx : ∀ r : Record, (∃ x, r = (1, .bytes x)) ∨ (∃ x, r = (2, .varint x)) ∨ (∃ x, r = (3, .varint x)) ∨
      ∀ s, cuckooField limit s r = some s := by
    rintro ⟨i, p⟩
    by_cases h : ∀ s, cuckooField limit s (i, p) = some s
    · simp [h]
    · unfold cuckooField at h
      split at h <;> simp_all
  intro r r' h s
  rcases hx r with ⟨n, rfl⟩ | ⟨n, rfl⟩ | ⟨n, rfl⟩ | hr <;>
    rcases hx r' with ⟨m, rfl⟩ | ⟨m, rfl⟩ | ⟨m, rfl⟩ | hr' <;> first
    | exact absurd rfl h
    | (simp [hr]; done)
    | (simp [hr']; done)
    | (by_cases hl : limit = 0
       · simp [cuckooField, hl]
       · simp only [cuckooField, if_neg hl]
         commute)

theorem simple_ignores (limit : Nat) : Ignores [1, 2] (simpleField limit) := by
  rintro ⟨i, p⟩ h s
  unfold simpleField
  split <;> simp_all

theorem simple_commutes (limit : Nat) : Commutes (simpleField limit) := by
  have hx : ∀ r : Record, (∃ x, r = (1, .bytes x)) ∨ (∃ x, r = (2, .varint x)) ∨
      ∀ s, simpleField limit s r = some s := by
    rintro ⟨i, p⟩
    by_cases h : ∀ s, simpleField limit s (i, p) = some s
    · simp [h]
    · unfold simpleField at h
      split at h <;> simp_all
  intro r r' h s
  rcases hx r with ⟨n, rfl⟩ | ⟨n, rfl⟩ | hr <;>
    rcases hx r' with ⟨m, rfl⟩ | ⟨m, rfl⟩ | hr' <;> first
    | exact absurd rfl h
    | (simp [hr]; done)
    | (simp [hr']; done)
    | (by_cases hl : limit = 0
       · simp [simpleField, hl]
       · simp only [simpleField, if_neg hl]
         commute)

theorem queries_ignores : Ignores [1, 2] queriesField := by
  rintro ⟨i, p⟩ h s
  unfold queriesField
  split <;> simp_all

theorem queries_commutes : Commutes queriesField := by
  have hx : ∀ r : Record, (∃ x, r = (1, .bytes x)) ∨ (∃ x, r = (2, .bytes x)) ∨
      ∀ s, queriesField s r = some s := by
    rintro ⟨i, p⟩
    by_cases h : ∀ s, queriesField s (i, p) = some s
    · simp [h]
    · unfold queriesField at h
      split at h <;> simp_all
  intro r r' h s
  rcases hx r with ⟨n, rfl⟩ | ⟨n, rfl⟩ | hr <;>
    rcases hx r' with ⟨m, rfl⟩ | ⟨m, rfl⟩ | hr' <;> first
    | exact absurd rfl h
    | (simp [hr]; done)
    | (simp [hr']; done)
    | (simp [queriesField]; done)

theorem integer_ignores (limit : Nat) : Ignores [1, 2] (integerField limit) := by
  rintro ⟨i, p⟩ h s
  unfold integerField
  split <;> simp_all

theorem bitsize_ignores : Ignores [1] bitsizeField := by
  rintro ⟨i, p⟩ h s
  unfold bitsizeField
  split <;> simp_all

theorem dcfKey_ignores (limit : Nat) : Ignores [1] (dcfKeyField limit) := by
  rintro ⟨i, p⟩ h s
  unfold dcfKeyField
  split <;> simp_all

theorem encrypted_ignores : Ignores [1] encryptedField := by
  rintro ⟨i, p⟩ h s
  unfold encryptedField
  split <;> simp_all

theorem dpfRequest_ignores (limit : Nat) : Ignores [1, 2, 3] (dpfRequestField limit) := by
  rintro ⟨i, p⟩ h s
  unfold dpfRequestField
  split <;> simp_all

theorem request_ignores (limit : Nat) : Ignores [1] (requestField limit) := by
  rintro ⟨i, p⟩ h s
  unfold requestField
  split <;> simp_all

theorem dpfResponse_ignores : Ignores [1] dpfResponseField := by
  rintro ⟨i, p⟩ h s
  unfold dpfResponseField
  split <;> simp_all

theorem response_ignores (limit : Nat) : Ignores [1] (responseField limit) := by
  rintro ⟨i, p⟩ h s
  unfold responseField
  split <;> simp_all

theorem denseConfig_ignores : Ignores [1] denseConfigField := by
  rintro ⟨i, p⟩ h s
  unfold denseConfigField
  split <;> simp_all

theorem config_ignores (limit : Nat) : Ignores [1, 2, 3] (configField limit) := by
  rintro ⟨i, p⟩ h s
  unfold configField
  split <;> simp_all

theorem public_ignores (limit : Nat) : Ignores [1, 2] (publicField limit) := by
  rintro ⟨i, p⟩ h s
  unfold publicField
  split <;> simp_all

theorem seed_ignores : Ignores [1] seedField := by
  rintro ⟨i, p⟩ h s
  unfold seedField
  split <;> simp_all

theorem state_ignores (limit : Nat) : Ignores [1, 2, 3] (stateField limit) := by
  rintro ⟨i, p⟩ h s
  unfold stateField
  split <;> simp_all

theorem value_ignores (limit : Nat) : Ignores [1, 2, 3, 4] (valueField limit) := by
  rintro ⟨i, p⟩ h s
  cases limit <;> (unfold valueField; split <;> simp_all)

theorem tuple_ignores (limit : Nat) : Ignores [1] (tupleField limit) := by
  rintro ⟨i, p⟩ h s
  cases limit <;> (unfold tupleField; split <;> simp_all)

theorem type_ignores (limit : Nat) : Ignores [1, 2, 3, 4] (typeField limit) := by
  rintro ⟨i, p⟩ h s
  cases limit <;> (unfold typeField; split <;> simp_all)

theorem tupleType_ignores (limit : Nat) : Ignores [1] (tupleTypeField limit) := by
  rintro ⟨i, p⟩ h s
  cases limit <;> (unfold tupleTypeField; split <;> simp_all)

end Verif.Wire
