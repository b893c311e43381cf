import Verif.Spec.HashedBuilders
import Verif.Lemmas.Res
/-!
# Builders of hashed databases
-/
namespace Verif
open Res Spec

/-- The builders stand for the abstract ones. -/
def Related {B A : Type} (R : B → A → Prop) (bs : List B) (as : List A) : Prop :=
  bs.length = as.length ∧ ∀ (i : Nat) (b : B) (a : A), bs[i]? = some b → as[i]? = some a → R b a

theorem Related.modify {B A : Type} {R : B → A → Prop} {bs : List B} {as : List A} (h : Related R bs as)
    {i : Nat} {f : B → B} {g : A → A} (hfg : ∀ b a, R b a → R (f b) (g a)) :
    Related R (bs.modify i f) (as.modify i g) := by
  refine ⟨by simp [h.1], ?_⟩
  intro j b a hb ha
  rw [List.getElem?_modify] at hb ha
  cases hbj : bs[j]? with
  | none => rw [hbj] at hb; cases hb
  | some b0 =>
    cases haj : as[j]? with
    | none => rw [haj] at ha; cases ha
    | some a0 =>
      have h0 := h.2 j b0 a0 hbj haj
      rw [hbj] at hb; rw [haj] at ha
      by_cases hij : i = j
      · simp [hij] at hb ha
        rw [← hb, ← ha]
        exact hfg _ _ h0
      · simp [hij] at hb ha
        rw [← hb, ← ha]
        exact h0

theorem Related.modify_left {B A : Type} {R : B → A → Prop} {bs : List B} {as : List A} (h : Related R bs as)
    {i : Nat} {f : B → B} (hf : ∀ b a, R b a → R (f b) a) : Related R (bs.modify i f) as := by
  have := h.modify (i := i) (f := f) (g := id) hf
  rwa [List.modify_id] at this

theorem Related.get {B A : Type} {R : B → A → Prop} {bs : List B} {as : List A} (h : Related R bs as) (i : Nat) :
    (bs[i]? = none ∧ as[i]? = none) ∨ ∃ b a, bs[i]? = some b ∧ as[i]? = some a ∧ R b a := by
  cases hb : bs[i]? with
  | none =>
    left
    rw [List.getElem?_eq_none_iff] at hb
    exact ⟨rfl, by rw [List.getElem?_eq_none_iff, ← h.1]; exact hb⟩
  | some b =>
    right
    have hi : i < as.length := by
      have := (List.getElem?_eq_some_iff.mp hb).1
      rw [← h.1]; exact this
    exact ⟨b, as[i], rfl, List.getElem?_eq_getElem hi, h.2 i b _ hb (List.getElem?_eq_getElem hi)⟩

theorem Related.clone {B A : Type} {R : B → A → Prop} {bs : List B} {as : List A} (h : Related R bs as) (i : Nat)
    {f : B → B} (hf : ∀ b a, R b a → R (f b) a) : Related R (bs ++ bs[i]?.toList.map f) (as ++ as[i]?.toList) := by
  rcases h.get i with ⟨h1, h2⟩ | ⟨b0, a0, h1, h2, h3⟩
  · rw [h1, h2]; simpa using h
  · rw [h1, h2]
    refine ⟨by simp [h.1], ?_⟩
    intro j b a hb ha
    simp only [Option.toList_some, List.map_cons, List.map_nil] at hb ha
    by_cases hj : j < bs.length
    · rw [List.getElem?_append_left hj] at hb
      rw [List.getElem?_append_left (by rw [← h.1]; exact hj)] at ha
      exact h.2 j b a hb ha
    · rw [List.getElem?_append_right (by omega)] at hb
      rw [List.getElem?_append_right (by rw [← h.1]; omega), ← h.1] at ha
      have hj0 : j - bs.length = 0 := by
        have := (List.getElem?_eq_some_iff.mp hb).1
        simp at this; omega
      rw [hj0] at hb ha
      simp at hb ha
      rw [← hb, ← ha]
      exact hf _ _ h3

theorem Related.result {B A T : Type} {R : B → A → Prop} {bs : List B} {as : List A} (h : Related R bs as)
    (i : Nat) {f : B → T} {g : A → T} (hfg : ∀ b a, R b a → f b = g a) :
    bs[i]?.toList.map f = as[i]?.toList.map g := by
  rcases h.get i with ⟨h1, h2⟩ | ⟨b0, a0, h1, h2, h3⟩
  · rw [h1, h2]; rfl
  · rw [h1, h2]; simp [hfg _ _ h3]

theorem runOps_eq {B A O T : Type} {R : B → A → Prop} {sb : List B → O → List B × List T}
    {sa : List A → O → List A × List T}
    (hstep : ∀ bs as op, Related R bs as → (sb bs op).2 = (sa as op).2 ∧ Related R (sb bs op).1 (sa as op).1)
    (ops : List O) {bs : List B} {as : List A} (h : Related R bs as) : runOps sb bs ops = runOps sa as ops := by
  induction ops generalizing bs as with
  | nil => rfl
  | cons op ops ih =>
    obtain ⟨h1, h2⟩ := hstep bs as op h
    rw [runOps, runOps, h1, ih h2]

/-- A builder that has been given no records of its own. -/
def Unused (b : Option DenseBuilder) : Prop := b.getD DenseBuilder.new = DenseBuilder.new

theorem Unused.clear (b : Option DenseBuilder) : Unused (b.map DenseBuilder.clear) := by
  cases b <;> rfl

theorem Unused.clone {b : Option DenseBuilder} (h : Unused b) : Unused (b.map DenseBuilder.clone) := by
  cases b with
  | none => exact h
  | some b => exact h

/-! ### Cuckoo hashing -/

/-- A new builder with parameters and records. -/
def freshCuckoo (params : CuckooParams) (records : List (Bytes × Bytes)) : CuckooBuilder :=
  records.foldl CuckooBuilder.insert (CuckooBuilder.new.setParams params)

theorem freshCuckoo_eq (params : CuckooParams) (records : List (Bytes × Bytes)) :
    freshCuckoo params records =
      ⟨params, none, none, records.foldl (fun m r => mapInsert r.1 r.2 m) [], false⟩ := by
  have : ∀ (rs : List (Bytes × Bytes)) (b : CuckooBuilder), rs.foldl CuckooBuilder.insert b =
      { b with records := rs.foldl (fun m r => mapInsert r.1 r.2 m) b.records } := by
    intro rs
    induction rs with
    | nil => intro b; rfl
    | cons r rs ih => intro b; rw [List.foldl_cons, ih]; rfl
  rw [freshCuckoo, this]
  rfl

/-- The builder stands for the abstract one. -/
structure CuckooStands (b : CuckooBuilder) (a : AbstractHashed CuckooParams) : Prop where
  params : b.params = a.params
  records : b.records = (freshCuckoo a.params a.records).records
  built : b.built = a.built
  keys : Unused b.keyBuilder
  values : Unused b.valueBuilder

theorem CuckooStands.build {b : CuckooBuilder} {a : AbstractHashed CuckooParams} (h : CuckooStands b a)
    (sha : Sha256) (random : Nat → Nat) :
    (b.build sha random).1 = if a.built then err .failedPrecondition
      else ((freshCuckoo a.params a.records).build sha random).1 := by
  unfold CuckooBuilder.build
  rw [h.built]
  cases a.built with
  | true => rfl
  | false =>
    have h1 := h.params
    have h2 := h.records
    have h3 : b.keyBuilder.getD DenseBuilder.new = DenseBuilder.new := h.keys
    have h4 : b.valueBuilder.getD DenseBuilder.new = DenseBuilder.new := h.values
    rw [freshCuckoo_eq] at h2 ⊢
    show CuckooBuilder.buildDb sha random b = CuckooBuilder.buildDb sha random _
    unfold CuckooBuilder.buildDb
    rw [h1, h2, h3, h4]
    rfl

theorem cuckoo_step (sha : Sha256) (bs : List CuckooBuilder) (as : List (AbstractHashed CuckooParams))
    (op : HashedOp CuckooParams (Nat → Nat)) (h : Related CuckooStands bs as) :
    (cuckooStep sha bs op).2 = (abstractHashedStep (fun p rs random =>
      ((freshCuckoo p rs).build sha random).1) as op).2 ∧
    Related CuckooStands (cuckooStep sha bs op).1 (abstractHashedStep (fun p rs random =>
      ((freshCuckoo p rs).build sha random).1) as op).1 := by
  cases op with
  | insert i r =>
    refine ⟨rfl, h.modify fun b a hba => ⟨hba.params, ?_, hba.built, hba.keys, hba.values⟩⟩
    have := hba.records
    rw [freshCuckoo_eq] at this ⊢
    show mapInsert r.1 r.2 b.records = _
    rw [this, List.foldl_append]
    rfl
  | clear i =>
    refine ⟨rfl, h.modify fun b a hba => ⟨hba.params, rfl, rfl, Unused.clear _, Unused.clear _⟩⟩
  | setParams i p =>
    refine ⟨rfl, h.modify fun b a hba => ⟨rfl, ?_, hba.built, hba.keys, hba.values⟩⟩
    have := hba.records
    rw [freshCuckoo_eq] at this ⊢
    exact this
  | setDense i k d =>
    refine ⟨rfl, h.modify_left fun b a hba => ?_⟩
    cases k with
    | true => exact ⟨hba.params, hba.records, hba.built, Unused.clear d, hba.values⟩
    | false => exact ⟨hba.params, hba.records, hba.built, hba.keys, Unused.clear d⟩
  | clone i =>
    exact ⟨rfl, h.clone i fun b a hba => ⟨hba.params, hba.records, hba.built, hba.keys.clone, hba.values.clone⟩⟩
  | build i random =>
    refine ⟨h.result i fun b a hba => hba.build sha random, h.modify fun b a hba => ?_⟩
    unfold CuckooBuilder.build
    cases hb : b.built with
    | true => exact ⟨hba.params, hba.records, hb, hba.keys, hba.values⟩
    | false => exact ⟨hba.params, hba.records, rfl, hba.keys, hba.values⟩

/-! ### Simple hashing -/

/-- A new builder with parameters and records. -/
def freshSimple (params : SimpleParams) (records : List (Bytes × Bytes)) : SimpleBuilder :=
  records.foldl SimpleBuilder.insert (SimpleBuilder.new.setParams params)

theorem freshSimple_eq (params : SimpleParams) (records : List (Bytes × Bytes)) :
    freshSimple params records = ⟨params, none, records, false⟩ := by
  have : ∀ (rs : List (Bytes × Bytes)) (b : SimpleBuilder), rs.foldl SimpleBuilder.insert b =
      { b with records := b.records ++ rs } := by
    intro rs
    induction rs with
    | nil => intro b; simp
    | cons r rs ih =>
      intro b
      rw [List.foldl_cons, ih]
      simp [SimpleBuilder.insert]
  rw [freshSimple, this]
  rfl

/-- The builder stands for the abstract one. -/
structure SimpleStands (b : SimpleBuilder) (a : AbstractHashed SimpleParams) : Prop where
  params : b.params = a.params
  records : b.records = a.records
  built : b.built = a.built
  dense : Unused b.denseBuilder

theorem SimpleStands.build {b : SimpleBuilder} {a : AbstractHashed SimpleParams} (h : SimpleStands b a)
    (sha : Sha256) (codec : BucketCodec) :
    (b.build sha codec).1 = if a.built then err .failedPrecondition
      else ((freshSimple a.params a.records).build sha codec).1 := by
  unfold SimpleBuilder.build
  rw [h.built]
  cases a.built with
  | true => rfl
  | false =>
    have h1 := h.params
    have h2 := h.records
    have h3 : b.denseBuilder.getD DenseBuilder.new = DenseBuilder.new := h.dense
    rw [freshSimple_eq]
    show SimpleBuilder.buildDb sha codec b = SimpleBuilder.buildDb sha codec _
    unfold SimpleBuilder.buildDb
    rw [h1, h2, h3]
    rfl

theorem simple_step (sha : Sha256) (codec : BucketCodec) (bs : List SimpleBuilder)
    (as : List (AbstractHashed SimpleParams)) (op : HashedOp SimpleParams Unit)
    (h : Related SimpleStands bs as) :
    (simpleStep sha codec bs op).2 = (abstractHashedStep (fun p rs _ =>
      ((freshSimple p rs).build sha codec).1) as op).2 ∧
    Related SimpleStands (simpleStep sha codec bs op).1 (abstractHashedStep (fun p rs _ =>
      ((freshSimple p rs).build sha codec).1) as op).1 := by
  cases op with
  | insert i r =>
    refine ⟨rfl, h.modify fun b a hba => ⟨hba.params, ?_, hba.built, hba.dense⟩⟩
    show b.records ++ [r] = _
    rw [hba.records]
  | clear i =>
    refine ⟨rfl, h.modify fun b a hba => ⟨hba.params, rfl, rfl, Unused.clear _⟩⟩
  | setParams i p => exact ⟨rfl, h.modify fun b a hba => ⟨rfl, hba.records, hba.built, hba.dense⟩⟩
  | setDense i k d =>
    exact ⟨rfl, h.modify_left fun b a hba => ⟨hba.params, hba.records, hba.built, Unused.clear d⟩⟩
  | clone i =>
    exact ⟨rfl, h.clone i fun b a hba => ⟨hba.params, hba.records, hba.built, hba.dense.clone⟩⟩
  | build i x =>
    refine ⟨h.result i fun b a hba => hba.build sha codec, h.modify fun b a hba => ?_⟩
    unfold SimpleBuilder.build
    cases hb : b.built with
    | true => exact ⟨hba.params, hba.records, hb, hba.dense⟩
    | false => exact ⟨hba.params, hba.records, rfl, hba.dense⟩

end Verif
