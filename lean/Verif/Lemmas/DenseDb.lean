import Verif.Spec.DensePir
import Verif.Lemmas.Res
import Verif.Lemmas.InnerProduct
/-!
# The dense database
-/
namespace Verif
open Res Spec

theorem alignBytes_spec (n : Nat) : alignBytes n % 16 = 0 ∧ n ≤ alignBytes n ∧ alignBytes n < n + 16 := by
  unfold alignBytes; omega

theorem slice_append {l l' r : Bytes} {s n : Nat} (h : slice l s n = ok r) :
    slice (l ++ l') s n = ok r := by
  unfold slice at h ⊢
  split at h
  · rename_i hle
    rw [if_pos (by simp; omega)]
    simp only [ok.injEq] at h ⊢
    rw [← h, List.drop_append_of_le_length (by omega), List.take_append_of_le_length (by simp; omega)]
  · cases h

theorem slice_middle (l v l' : Bytes) : slice (l ++ (v ++ l')) l.length v.length = ok v := by
  unfold slice
  rw [if_pos (by simp)]
  simp

/-- What a database under construction holds. -/
structure DenseDb.Holds (db : DenseDb) (records : List Bytes) : Prop where
  aligned : db.buffer.length = (records.map fun r => alignBytes r.length).sum
  max : db.maxValueSize = maxLength records
  content : db.content = ok records
  size : db.size = records.length

theorem sum_align_mod (records : List Bytes) :
    (records.map fun r => alignBytes r.length).sum % 16 = 0 := by
  induction records with
  | nil => rfl
  | cons r rs ih =>
    have := (alignBytes_spec r.length).1
    rw [List.map_cons, List.sum_cons]; omega

theorem maxLength_append (records : List Bytes) (v : Bytes) :
    maxLength (records ++ [v]) = if v.length > maxLength records then v.length else maxLength records := by
  unfold maxLength
  rw [List.map_append, List.foldl_append, List.map_cons, List.map_nil, List.foldl_cons, List.foldl_nil]
  split <;> omega

theorem foldl_max_ge (l : List Nat) (a : Nat) : a ≤ l.foldl max a ∧ ∀ x ∈ l, x ≤ l.foldl max a := by
  induction l generalizing a with
  | nil => simp
  | cons b l ih =>
    rw [List.foldl_cons]
    obtain ⟨h1, h2⟩ := ih (max a b)
    refine ⟨by omega, ?_⟩
    intro x hx
    rcases List.mem_cons.mp hx with rfl | hx
    · omega
    · exact h2 x hx

theorem length_le_maxLength {records : List Bytes} {r : Bytes} (h : r ∈ records) :
    r.length ≤ maxLength records :=
  (foldl_max_ge _ 0).2 _ (List.mem_map.mpr ⟨r, h, rfl⟩)

theorem DenseDb.append_ok {db : DenseDb} {records : List Bytes} (h : db.Holds records) {v : Bytes}
    (hcap : db.buffer.length + alignBytes v.length ≤ 16 * db.capacity) :
    ∃ db', db.append v = ok db' ∧ db'.Holds (records ++ [v]) ∧ db'.capacity = db.capacity := by
  have hmod : db.buffer.length % 16 = 0 := by rw [h.aligned]; exact sum_align_mod records
  obtain ⟨ha, hle, hlt⟩ := alignBytes_spec v.length
  have hoff : 16 * (db.buffer.length / 16) = db.buffer.length := by omega
  unfold DenseDb.append
  dsimp only
  by_cases h0 : v.length = 0
  · have hv : v = [] := List.eq_nil_of_length_eq_zero h0
    subst hv
    rw [if_pos h0]
    refine ⟨_, rfl, ⟨?_, ?_, ?_, ?_⟩, rfl⟩
    · show db.buffer.length = _
      rw [h.aligned, List.map_append, List.sum_append]
      simp [alignBytes]
    · show db.maxValueSize = _
      rw [h.max, maxLength_append, if_neg (by simp)]
    · show mapRes _ (db.views ++ [(db.buffer.length / 16, 0)]) = _
      have hc : mapRes (fun v : Nat × Nat => slice db.buffer (16 * v.1) v.2) db.views = ok records :=
        h.content
      have hs : slice db.buffer db.buffer.length 0 = ok [] := by
        unfold slice; rw [if_pos (by omega)]; simp
      rw [mapRes_append, hc, bind_ok, mapRes_cons]
      dsimp only
      rw [hoff, hs]
      rfl
    · show (db.views ++ [(db.buffer.length / 16, 0)]).length = _
      have : db.views.length = records.length := h.size
      simp [this]
  · rw [if_neg h0, if_neg (by omega)]
    have hadd : 16 * (alignBytes v.length / 16) = alignBytes v.length := by omega
    rw [hoff, hadd]
    have hw : writeAt (db.buffer ++ List.replicate (alignBytes v.length) 0) db.buffer.length v =
        ok (db.buffer ++ (v ++ List.replicate (alignBytes v.length - v.length) 0)) := by
      unfold writeAt
      rw [if_pos (by simp; omega)]
      simp
    rw [hw, bind_ok]
    refine ⟨_, rfl, ⟨?_, ?_, ?_, ?_⟩, rfl⟩
    · simp only [List.length_append, List.length_replicate, List.map_append, List.sum_append, h.aligned,
        List.map_cons, List.map_nil, List.sum_cons, List.sum_nil]
      omega
    · show (if v.length > db.maxValueSize then v.length else db.maxValueSize) = _
      rw [maxLength_append, h.max]
    · have hc : mapRes (fun v : Nat × Nat => slice db.buffer (16 * v.1) v.2) db.views = ok records :=
        h.content
      show mapRes (fun x : Nat × Nat => slice (db.buffer ++ (v ++ List.replicate (alignBytes v.length -
        v.length) 0)) (16 * x.1) x.2) (db.views ++ [(db.buffer.length / 16, v.length)]) = _
      have hc' : mapRes (fun x : Nat × Nat => slice (db.buffer ++ (v ++ List.replicate
          (alignBytes v.length - v.length) 0)) (16 * x.1) x.2) db.views = ok records := by
        rw [mapRes_eq_ok] at hc ⊢
        exact ⟨hc.1, fun i h1 h2 => slice_append (hc.2 i h1 h2)⟩
      rw [mapRes_append, hc', bind_ok, mapRes_cons]
      dsimp only
      rw [hoff, slice_middle]
      rfl
    · show (db.views ++ [(db.buffer.length / 16, v.length)]).length = _
      have : db.views.length = records.length := h.size
      simp [this]

theorem DenseDb.appendAll_ok (vs : List Bytes) {db : DenseDb} {records : List Bytes}
    (h : db.Holds records)
    (hcap : db.buffer.length + (vs.map fun r => alignBytes r.length).sum ≤ 16 * db.capacity) :
    ∃ db', foldRes DenseDb.append db vs = ok db' ∧ db'.Holds (records ++ vs) := by
  induction vs generalizing db records with
  | nil => exact ⟨db, rfl, by simpa using h⟩
  | cons v vs ih =>
    rw [List.map_cons, List.sum_cons] at hcap
    obtain ⟨db1, h1, h2, h3⟩ := DenseDb.append_ok h (v := v) (by omega)
    have hl : db1.buffer.length = db.buffer.length + alignBytes v.length := by
      rw [h2.aligned, h.aligned]; simp
    obtain ⟨db2, h4, h5⟩ := ih h2 (by rw [hl, h3]; omega)
    refine ⟨db2, ?_, by simpa using h5⟩
    rw [foldRes_cons, h1, bind_ok, h4]

/-- A builder that has not built. -/
structure DenseBuilder.Ready (b : DenseBuilder) (records : List Bytes) : Prop where
  values : b.values = records
  total : b.totalBytes = (records.map fun r => alignBytes r.length).sum
  built : b.built = false

theorem DenseBuilder.Ready.build {b : DenseBuilder} {records : List Bytes} (h : b.Ready records) :
    ∃ db, b.build.1 = ok db ∧ db.Holds records := by
  unfold DenseBuilder.build
  rw [h.built, h.values, h.total]
  have h0 : (DenseDb.new (records.map fun r => alignBytes r.length).sum).Holds [] :=
    ⟨rfl, rfl, rfl, rfl⟩
  have := sum_align_mod records
  obtain ⟨db, h1, h2⟩ := DenseDb.appendAll_ok records h0 (by
    show 0 + _ ≤ 16 * numBytesToNumBlocks _
    unfold numBytesToNumBlocks
    omega)
  exact ⟨db, h1, by simpa using h2⟩

theorem DenseBuilder.Ready.insert {b : DenseBuilder} {records : List Bytes} (h : b.Ready records)
    (v : Bytes) : (b.insert v).Ready (records ++ [v]) := by
  refine ⟨?_, ?_, h.built⟩
  · show b.values ++ [v] = _; rw [h.values]
  · show b.totalBytes + alignBytes v.length = _; rw [h.total]; simp

theorem DenseBuilder.Ready.insertAll {b : DenseBuilder} {records : List Bytes} (h : b.Ready records)
    (vs : List Bytes) : (vs.foldl DenseBuilder.insert b).Ready (records ++ vs) := by
  induction vs generalizing b records with
  | nil => simpa using h
  | cons v vs ih => simpa using ih (h.insert v)

theorem builtFrom_holds {records : List Bytes} {db : DenseDb} (h : BuiltFrom records db) :
    db.Holds records := by
  have h0 : DenseBuilder.new.Ready [] := ⟨rfl, rfl, rfl⟩
  obtain ⟨db', h1, h2⟩ := (h0.insertAll records).build
  unfold BuiltFrom at h
  rw [h1] at h
  cases h
  simpa using h2

theorem builtFrom_exists (records : List Bytes) : ∃ db, BuiltFrom records db := by
  have h0 : DenseBuilder.new.Ready [] := ⟨rfl, rfl, rfl⟩
  obtain ⟨db', h1, _⟩ := (h0.insertAll records).build
  exact ⟨db', h1⟩

/-- A builder of the model stands for an abstract one. -/
def Stands (b : DenseBuilder) (a : AbstractBuilder) : Prop :=
  b.built = a.built ∧ (a.built = false → b.Ready a.records)

/-- Two heaps correspond. -/
def StandsAll (bs : List DenseBuilder) (as : List AbstractBuilder) : Prop :=
  bs.length = as.length ∧ ∀ (i : Nat) b a, bs[i]? = some b → as[i]? = some a → Stands b a

theorem StandsAll.modify {bs : List DenseBuilder} {as : List AbstractBuilder} (h : StandsAll bs as)
    {i : Nat} {f : DenseBuilder → DenseBuilder} {g : AbstractBuilder → AbstractBuilder}
    (hfg : ∀ b a, Stands b a → Stands (f b) (g a)) : StandsAll (bs.modify i f) (as.modify i g) := by
  refine ⟨by simp [h.1], ?_⟩
  intro j b a hb ha
  rw [List.getElem?_modify] at hb ha
  cases hb' : bs[j]? with
  | none => rw [hb'] at hb; simp at hb
  | some b0 =>
    cases ha' : as[j]? with
    | none => rw [ha'] at ha; simp at ha
    | some a0 =>
      rw [hb'] at hb
      rw [ha'] at ha
      have h0 := h.2 j b0 a0 hb' ha'
      by_cases hij : i = j
      · simp [hij] at hb ha
        rw [← hb, ← ha]
        exact hfg _ _ h0
      · simp [hij] at hb ha
        rw [← hb, ← ha]
        exact h0

theorem Stands.build {b : DenseBuilder} {a : AbstractBuilder} (h : Stands b a) :
    (b.build.1 >>= DenseDb.content) = (if a.built then err .failedPrecondition else ok a.records) ∧
    Stands b.build.2 ⟨a.records, true⟩ := by
  cases ha : a.built with
  | true =>
    have hb : b.built = true := by rw [h.1, ha]
    unfold DenseBuilder.build
    rw [hb]
    exact ⟨rfl, hb, fun h => by cases h⟩
  | false =>
    obtain ⟨db, h1, h2⟩ := (h.2 ha).build
    refine ⟨?_, ?_, fun h => by cases h⟩
    · rw [h1, bind_ok, h2.content]; rfl
    · unfold DenseBuilder.build
      rw [show b.built = false from h.1.trans ha]
      rfl

theorem run_eq (ops : List BuilderOp) {bs : List DenseBuilder} {as : List AbstractBuilder}
    (h : StandsAll bs as) :
    (runBuilders bs ops).map (fun r => r >>= DenseDb.content) = runAbstract as ops := by
  induction ops generalizing bs as with
  | nil => rfl
  | cons op ops ih =>
    rw [runBuilders, runAbstract, List.map_append]
    have hstep : (builderStep bs op).2.map (fun r => r >>= DenseDb.content) = (abstractStep as op).2 ∧
        StandsAll (builderStep bs op).1 (abstractStep as op).1 := by
      cases op with
      | insert i v =>
        refine ⟨rfl, h.modify ?_⟩
        intro b a hba
        exact ⟨hba.1, fun hn => (hba.2 hn).insert v⟩
      | clear i =>
        refine ⟨rfl, h.modify ?_⟩
        intro b a hba
        exact ⟨rfl, fun _ => ⟨rfl, rfl, rfl⟩⟩
      | clone i =>
        refine ⟨rfl, ?_⟩
        show StandsAll (bs ++ (bs[i]?.toList.map DenseBuilder.clone)) (as ++ as[i]?.toList)
        cases hb : bs[i]? with
        | none =>
          have : as[i]? = none := by
            rw [List.getElem?_eq_none_iff] at hb ⊢; rw [← h.1]; exact hb
          rw [this]; simpa using h
        | some b =>
          have hi : i < as.length := by
            have := (List.getElem?_eq_some_iff.mp hb).1
            rw [← h.1]; exact this
          rw [List.getElem?_eq_getElem hi]
          have h0 := h.2 i b _ hb (List.getElem?_eq_getElem hi)
          refine ⟨by simp [h.1], ?_⟩
          intro j b' a' hb' ha'
          simp only [Option.toList_some, List.map_cons, List.map_nil] at hb' ha'
          by_cases hj : j < bs.length
          · rw [List.getElem?_append_left hj] at hb'
            rw [List.getElem?_append_left (by rw [← h.1]; exact hj)] at ha'
            exact h.2 j b' a' hb' ha'
          · rw [List.getElem?_append_right (by omega)] at hb'
            rw [List.getElem?_append_right (by rw [← h.1]; omega), ← h.1] at ha'
            have hj0 : j - bs.length = 0 := by
              have := (List.getElem?_eq_some_iff.mp hb').1
              simp at this; omega
            rw [hj0] at hb' ha'
            simp at hb' ha'
            rw [← hb', ← ha']
            exact ⟨h0.1, fun hn => ⟨(h0.2 hn).values, (h0.2 hn).total, (h0.2 hn).built⟩⟩
      | build i =>
        constructor
        · show (bs[i]?.toList.map fun b => b.build.1).map _ = as[i]?.toList.map _
          cases hb : bs[i]? with
          | none =>
            have : as[i]? = none := by
              rw [List.getElem?_eq_none_iff] at hb ⊢; rw [← h.1]; exact hb
            rw [this]; rfl
          | some b =>
            have hi : i < as.length := by
              have := (List.getElem?_eq_some_iff.mp hb).1
              rw [← h.1]; exact this
            rw [List.getElem?_eq_getElem hi]
            have h0 := h.2 i b _ hb (List.getElem?_eq_getElem hi)
            simp only [Option.toList_some, List.map_cons, List.map_nil]
            rw [h0.build.1]
        · exact h.modify fun b a hba => hba.build.2
    rw [hstep.1, ih hstep.2]

end Verif
