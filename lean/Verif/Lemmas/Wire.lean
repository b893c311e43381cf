import Verif.Spec.Wire
import Verif.Lemmas.Values
/-!
# Parsing of serialized messages
-/
namespace Verif.Wire
open Verif Spec

/-! ## Records -/

theorem readVarint_varint {k n : Nat} (h : n < 128 ^ k) (h0 : 0 < k) (r : Bytes) :
    readVarint k (varint n ++ r) = some (n, r) := by
  induction k generalizing n with
  | zero => omega
  | succ k ih =>
    rw [varint]
    split
    · rename_i hn
      rw [List.cons_append, List.nil_append, readVarint, BitVec.toNat_ofNat,
        Nat.mod_eq_of_lt (by omega : n < 2 ^ 8), if_pos hn]
    · rename_i hn
      have hk : 0 < k := by
        rcases Nat.eq_zero_or_pos k with rfl | hk
        · simp at h; omega
        · exact hk
      have hd : n / 128 < 128 ^ k := by
        rw [Nat.pow_succ] at h
        exact Nat.div_lt_of_lt_mul (by rw [Nat.mul_comm]; exact h)
      rw [List.cons_append, readVarint, BitVec.toNat_ofNat,
        Nat.mod_eq_of_lt (by omega : n % 128 + 128 < 2 ^ 8), if_neg (by omega), ih hd hk, Option.map_some]
      have : n % 128 + 128 - 128 + 128 * (n / 128) = n := by omega
      dsimp only
      rw [this]

theorem varint_ne_nil (n : Nat) : varint n ≠ [] := by
  rw [varint]; split <;> simp

theorem varint_length_pos (n : Nat) : 0 < (varint n).length := List.length_pos_iff.mpr (varint_ne_nil n)

theorem varint_length_le {k n : Nat} (h : n < 128 ^ k) (h0 : 0 < k) : (varint n).length ≤ k := by
  induction k generalizing n with
  | zero => omega
  | succ k ih =>
    rw [varint]
    split
    · simp
    · rename_i hn
      have hk : 0 < k := by
        rcases Nat.eq_zero_or_pos k with rfl | hk
        · simp at h; omega
        · exact hk
      have hd : n / 128 < 128 ^ k := by
        rw [Nat.pow_succ] at h
        exact Nat.div_lt_of_lt_mul (by rw [Nat.mul_comm]; exact h)
      rw [List.length_cons]
      have := ih hd hk
      omega

theorem littleEndian_length (k n : Nat) : (littleEndian k n).length = k := by
  induction k generalizing n with
  | zero => rfl
  | succ k ih => rw [littleEndian, List.length_cons, ih]

theorem leNat_littleEndian {k n : Nat} (h : n < 2 ^ (8 * k)) : leNat (littleEndian k n) = n := by
  induction k generalizing n with
  | zero => simp at h; subst h; rfl
  | succ k ih =>
    rw [littleEndian, leNat, ih, BitVec.toNat_ofNat]
    · omega
    · rw [show 8 * (k + 1) = 8 * k + 8 by omega, Nat.pow_add] at h
      exact Nat.div_lt_of_lt_mul (by rw [Nat.mul_comm]; exact h)

theorem splitBytes_append (a r : Bytes) : splitBytes a.length (a ++ r) = some (a, r) := by
  unfold splitBytes
  rw [if_pos (by simp), List.take_left, List.drop_left]

theorem readRecord_put {r : Record} (h : Fits r) (rest : Bytes)
    (hb : ∀ i b, r = (i, .bytes b) → b.length < maxMessage) :
    readRecord (putRecord r ++ rest) = some (r, rest) := by
  obtain ⟨i, p⟩ := r
  unfold readRecord
  cases p with
  | varint n =>
    obtain ⟨h0, h1, h2⟩ := h
    rw [putRecord, List.append_assoc, readVarint_varint (by omega) (by omega), Option.bind_some]
    dsimp only
    rw [Nat.mod_eq_of_lt (by omega : 8 * i < 2 ^ 32), if_neg (by omega),
      show 8 * i % 8 = 0 by omega, show 8 * i / 8 = i by omega]
    unfold readPayload
    dsimp only
    rw [readVarint_varint (by omega) (by omega)]
    simp [Nat.mod_eq_of_lt h2]
  | fixed64 n =>
    obtain ⟨h0, h1, h2⟩ := h
    rw [putRecord, List.append_assoc, readVarint_varint (by omega) (by omega), Option.bind_some]
    dsimp only
    rw [Nat.mod_eq_of_lt (by omega : 8 * i + 1 < 2 ^ 32), if_neg (by omega),
      show (8 * i + 1) % 8 = 1 by omega, show (8 * i + 1) / 8 = i by omega]
    unfold readPayload
    dsimp only
    have := splitBytes_append (littleEndian 8 n) rest
    rw [littleEndian_length] at this
    rw [this]
    simp [leNat_littleEndian (show n < 2 ^ (8 * 8) by omega)]
  | bytes b =>
    obtain ⟨h0, h1⟩ := h
    have hlen := hb i b rfl
    unfold maxMessage at hlen
    rw [putRecord, List.append_assoc, List.append_assoc, readVarint_varint (by omega) (by omega), Option.bind_some]
    dsimp only
    rw [Nat.mod_eq_of_lt (by omega : 8 * i + 2 < 2 ^ 32), if_neg (by omega),
      show (8 * i + 2) % 8 = 2 by omega, show (8 * i + 2) / 8 = i by omega]
    unfold readPayload
    dsimp only
    rw [readVarint_varint (k := 5) (by omega) (by omega)]
    simp only [Option.bind_some]
    rw [if_pos hlen, splitBytes_append]
    rfl
  | fixed32 n =>
    obtain ⟨h0, h1, h2⟩ := h
    rw [putRecord, List.append_assoc, readVarint_varint (by omega) (by omega), Option.bind_some]
    dsimp only
    rw [Nat.mod_eq_of_lt (by omega : 8 * i + 5 < 2 ^ 32), if_neg (by omega),
      show (8 * i + 5) % 8 = 5 by omega, show (8 * i + 5) / 8 = i by omega]
    unfold readPayload
    dsimp only
    have := splitBytes_append (littleEndian 4 n) rest
    rw [littleEndian_length] at this
    rw [this]
    simp [leNat_littleEndian (show n < 2 ^ (8 * 4) by omega)]

theorem wire_cons (r : Record) (rs : List Record) : wire (r :: rs) = putRecord r ++ wire rs := rfl

theorem wire_append (a b : List Record) : wire (a ++ b) = wire a ++ wire b := List.flatMap_append

theorem putRecord_length_pos (r : Record) : 0 < (putRecord r).length := by
  obtain ⟨i, p⟩ := r
  have h := fun n => varint_length_pos n
  cases p with
  | varint n => rw [putRecord, List.length_append]; have := h (8 * i); omega
  | fixed64 n => rw [putRecord, List.length_append]; have := h (8 * i + 1); omega
  | bytes b => rw [putRecord, List.length_append, List.length_append]; have := h (8 * i + 2); omega
  | fixed32 n => rw [putRecord, List.length_append]; have := h (8 * i + 5); omega

theorem length_le_wire (rs : List Record) : rs.length ≤ (wire rs).length := by
  induction rs with
  | nil => simp
  | cons r rs ih =>
    rw [wire_cons, List.length_cons, List.length_append]
    have := putRecord_length_pos r
    omega

/-- Contents of records are shorter than the message. -/
theorem bytes_length_le {i : Nat} {b : Bytes} {rs : List Record} (h : (i, Payload.bytes b) ∈ rs) :
    b.length ≤ (wire rs).length := by
  induction rs with
  | nil => cases h
  | cons r rs ih =>
    rw [wire_cons, List.length_append]
    rcases List.mem_cons.mp h with rfl | h
    · rw [putRecord, List.length_append]; omega
    · have := ih h; omega

theorem inner_length_le {i : Nat} {l rs : List Record} (h : inner i l ∈ rs) : (wire l).length ≤ (wire rs).length :=
  bytes_length_le h

theorem readRecords_wire {rs : List Record} (h : ∀ r ∈ rs, Fits r)
    (hb : ∀ i b, (i, Payload.bytes b) ∈ rs → b.length < maxMessage) {fuel : Nat} (hf : rs.length ≤ fuel) :
    readRecords fuel (wire rs) = some rs := by
  induction rs generalizing fuel with
  | nil => cases fuel <;> rfl
  | cons r rs ih =>
    obtain ⟨fuel, rfl⟩ : ∃ f, fuel = f + 1 := ⟨fuel - 1, by simp at hf; omega⟩
    rw [wire_cons]
    have hne : putRecord r ++ wire rs ≠ [] := by
      intro e
      have h2 := putRecord_length_pos r
      rw [(List.append_eq_nil_iff.mp e).1] at h2
      cases h2
    have : readRecords (fuel + 1) (putRecord r ++ wire rs) =
        (readRecord (putRecord r ++ wire rs)).bind fun (r, rest) => (readRecords fuel rest).map (r :: ·) := by
      cases hb : putRecord r ++ wire rs with
      | nil => exact absurd hb hne
      | cons _ _ => rfl
    rw [this, readRecord_put (h r (by simp)) _ (fun i b e => hb i b (by rw [e]; simp)), Option.bind_some]
    dsimp only
    rw [ih (fun r hr => h r (by simp [hr])) (fun i b hm => hb i b (by simp [hm])) (by simpa using hf)]
    rfl

theorem merge_wire {σ : Type} (f : σ → Record → Option σ) (s : σ) {rs : List Record} (h : ∀ r ∈ rs, Fits r)
    (hb : (wire rs).length < maxMessage) : merge f s (wire rs) = foldRecords f s rs := by
  unfold merge
  rw [readRecords_wire h (fun i b hm => Nat.lt_of_le_of_lt (bytes_length_le hm) hb) (length_le_wire rs)]
  rfl

theorem foldRecords_append {σ : Type} (f : σ → Record → Option σ) (s : σ) (a b : List Record) :
    foldRecords f s (a ++ b) = (foldRecords f s a).bind fun s => foldRecords f s b := by
  induction a generalizing s with
  | nil => rfl
  | cons r a ih =>
    rw [List.cons_append, foldRecords, foldRecords, Option.bind_assoc]
    congr 1
    funext s'
    exact ih s'

theorem foldRecords_append_some {σ : Type} {f : σ → Record → Option σ} {s t u : σ} {a b : List Record}
    (h : foldRecords f s a = some t) (h' : foldRecords f t b = some u) : foldRecords f s (a ++ b) = some u := by
  rw [foldRecords_append, h, Option.bind_some, h']

theorem foldRecords_single {σ : Type} {f : σ → Record → Option σ} {s t : σ} {r : Record} (h : f s r = some t) :
    foldRecords f s [r] = some t := by
  rw [foldRecords, h]; rfl

theorem foldRecords_number {σ : Type} {f : σ → Record → Option σ} {s t : σ} {i n : Nat} (h0 : n = 0 → s = t)
    (h : f s (i, .varint n) = some t) : foldRecords f s (number i n) = some t := by
  unfold number
  split
  · rename_i hn; rw [h0 hn]; rfl
  · exact foldRecords_single h

theorem foldRecords_string {σ : Type} {f : σ → Record → Option σ} {s t : σ} {i : Nat} {b : Bytes}
    (h0 : b = [] → s = t) (h : f s (i, .bytes b) = some t) : foldRecords f s (string i b) = some t := by
  unfold string
  split
  · rename_i hn; rw [h0 hn]; rfl
  · exact foldRecords_single h

/-- Repeated fields. -/
theorem foldRecords_map {σ α : Type} {f : σ → Record → Option σ} (upd : List α → σ) (g : α → Record) (l p : List α)
    (h : ∀ p a, a ∈ l → f (upd p) (g a) = some (upd (p ++ [a]))) :
    foldRecords f (upd p) (l.map g) = some (upd (p ++ l)) := by
  induction l generalizing p with
  | nil => simp [foldRecords]
  | cons a l ih =>
    rw [List.map_cons, foldRecords, h p a (by simp), Option.bind_some, ih _ (fun p a ha => h p a (by simp [ha])),
      List.append_assoc]
    rfl

/-- Optional fields. -/
theorem foldRecords_option {σ α : Type} {f : σ → Record → Option σ} (upd : Option α → σ) (g : α → Record)
    (o : Option α) (h : ∀ a, o = some a → f (upd none) (g a) = some (upd (some a))) :
    foldRecords f (upd none) (o.toList.map g) = some (upd o) := by
  cases o with
  | none => rfl
  | some a => exact foldRecords_single (h a rfl)

theorem fits_number {i n : Nat} (h0 : 0 < i) (h1 : i < 2 ^ 29) (h : n < 2 ^ 64) : ∀ r ∈ number i n, Fits r := by
  intro r hr
  unfold number at hr
  split at hr
  · cases hr
  · rw [List.mem_singleton] at hr; subst hr; exact ⟨h0, h1, h⟩

theorem fits_string {i : Nat} {b : Bytes} (h0 : 0 < i) (h1 : i < 2 ^ 29) : ∀ r ∈ string i b, Fits r := by
  intro r hr
  unfold string at hr
  split at hr
  · cases hr
  · rw [List.mem_singleton] at hr; subst hr; exact ⟨h0, h1⟩

theorem fits_map {α : Type} {i : Nat} (h0 : 0 < i) (h1 : i < 2 ^ 29) (g : α → Bytes) (l : List α) :
    ∀ r ∈ l.map (fun a => ((i, .bytes (g a)) : Record)), Fits r := by
  intro r hr
  obtain ⟨a, _, rfl⟩ := List.mem_map.mp hr
  exact ⟨h0, h1⟩

theorem fits_append {a b : List Record} (ha : ∀ r ∈ a, Fits r) (hb : ∀ r ∈ b, Fits r) : ∀ r ∈ a ++ b, Fits r := by
  intro r hr
  rcases List.mem_append.mp hr with h | h
  · exact ha r h
  · exact hb r h

theorem fits_inner {i : Nat} (h0 : 0 < i) (h1 : i < 2 ^ 29) (l : List Record) : ∀ r ∈ [inner i l], Fits r := by
  intro r hr
  rw [List.mem_singleton] at hr
  subst hr
  exact ⟨h0, h1⟩

/-! ## Numbers -/

theorem toInt32_signed {x : Int} (h : IsInt32 x) : toInt32 (signed x) = x := by
  obtain ⟨h0, h1⟩ := h
  unfold toInt32 signed wrapInt32
  omega

theorem toInt64_signed {x : Int} (h : IsInt64 x) : toInt64 (signed x) = x := by
  obtain ⟨h0, h1⟩ := h
  unfold toInt64 signed
  omega

theorem signed_lt (x : Int) : signed x < 2 ^ 64 := by
  unfold signed; omega

theorem IsInt32.isInt64 {x : Int} (h : IsInt32 x) : IsInt64 x := by
  obtain ⟨h0, h1⟩ := h
  exact ⟨by omega, by omega⟩

theorem signed_eq_zero {x : Int} (h : IsInt64 x) (h0 : signed x = 0) : x = 0 := by
  obtain ⟨h1, h2⟩ := h
  unfold signed at h0
  omega

theorem foldRecords_int32 {σ : Type} {f : σ → Record → Option σ} (upd : Int → σ) {i : Nat} {x : Int}
    (hx : IsInt32 x) (h : ∀ n, f (upd 0) (i, .varint n) = some (upd (toInt32 n))) :
    foldRecords f (upd 0) (number i (signed x)) = some (upd x) := by
  apply foldRecords_number
  · intro h0; rw [signed_eq_zero (IsInt32.isInt64 hx) h0]
  · rw [h, toInt32_signed hx]

theorem foldRecords_int64 {σ : Type} {f : σ → Record → Option σ} (upd : Int → σ) {i : Nat} {x : Int}
    (hx : IsInt64 x) (h : ∀ n, f (upd 0) (i, .varint n) = some (upd (toInt64 n))) :
    foldRecords f (upd 0) (number i (signed x)) = some (upd x) := by
  apply foldRecords_number
  · intro h0; rw [signed_eq_zero hx h0]
  · rw [h, toInt64_signed hx]

theorem foldRecords_bool {σ : Type} {f : σ → Record → Option σ} (upd : Bool → σ) {i : Nat} {x : Bool}
    (h : ∀ n, f (upd false) (i, .varint n) = some (upd (n != 0))) :
    foldRecords f (upd false) (number i x.toNat) = some (upd x) := by
  apply foldRecords_number
  · intro h0; cases x
    · rfl
    · cases h0
  · rw [h]; cases x <;> rfl

/-! ## Messages of the DPF -/

theorem fits_block (x : U128) : ∀ r ∈ putBlock x, Fits r :=
  fits_append (fits_number (by decide) (by decide) (BitVec.isLt _)) (fits_number (by decide) (by decide) (BitVec.isLt _))

theorem number_length_le {i n : Nat} (hi : i < 16) (hn : n < 2 ^ 64) : (wire (number i n)).length ≤ 11 := by
  unfold number
  split
  · simp [wire]
  · have h1 : (varint (8 * i)).length ≤ 1 := varint_length_le (by omega) (by omega)
    have h2 : (varint n).length ≤ 10 := varint_length_le (by omega) (by omega)
    simp only [wire, List.flatMap_cons, List.flatMap_nil, List.append_nil, putRecord, List.length_append]
    omega

theorem block_length_le (x : U128) : (wire (putBlock x)).length ≤ 22 := by
  unfold putBlock
  rw [wire_append, List.length_append]
  have h1 := number_length_le (i := 1) (by omega) (BitVec.isLt (high64 x))
  have h2 := number_length_le (i := 2) (by omega) (BitVec.isLt (low64 x))
  omega

theorem high64_makeU128 (hi lo : BitVec 64) : high64 (makeU128 hi lo) = hi := by
  apply BitVec.eq_of_toNat_eq
  rw [high64_toNat, makeU128_toNat]
  have := lo.isLt
  omega

theorem low64_makeU128 (hi lo : BitVec 64) : low64 (makeU128 hi lo) = lo := by
  apply BitVec.eq_of_toNat_eq
  rw [low64_toNat, makeU128_toNat]
  have := lo.isLt
  omega

theorem block_law (x : U128) : merge blockField 0 (wire (putBlock x)) = some x := by
  rw [merge_wire _ _ (fits_block x) (by have := block_length_le x; unfold maxMessage; omega)]
  have h0 : (0 : U128) = makeU128 0 0 := by decide
  unfold putBlock
  refine foldRecords_append_some (t := makeU128 (high64 x) 0) (foldRecords_number ?_ ?_)
    (foldRecords_number ?_ ?_)
  · intro h
    rw [show high64 x = 0 from BitVec.eq_of_toNat_eq h]
    exact h0
  · simp only [blockField, BitVec.ofNat_toNat, BitVec.setWidth_eq]
    rfl
  · intro h
    rw [← makeU128_split x, show low64 x = 0 from BitVec.eq_of_toNat_eq h]
    rw [high64_makeU128]
  · simp only [blockField, BitVec.ofNat_toNat, BitVec.setWidth_eq]
    rw [high64_makeU128, makeU128_split]

theorem fits_integer (v : IntegerP) : ∀ r ∈ putInteger v, Fits r := by
  cases v with
  | notSet => intro r hr; cases hr
  | u64 v =>
    intro r hr
    rw [putInteger, List.mem_singleton] at hr
    subst hr
    exact ⟨by decide, by decide, v.isLt⟩
  | u128 hi lo => exact fits_inner (by decide) (by decide) _

theorem integer_length_le (v : IntegerP) : (wire (putInteger v)).length ≤ 24 := by
  cases v with
  | notSet => simp [putInteger, wire]
  | u64 v =>
    have h1 : (varint (8 * 1)).length ≤ 1 := varint_length_le (by omega) (by omega)
    have h2 : (varint v.toNat).length ≤ 10 := varint_length_le (by have := v.isLt; omega) (by omega)
    simp only [putInteger, wire, List.flatMap_cons, List.flatMap_nil, List.append_nil, putRecord, List.length_append]
    omega
  | u128 hi lo =>
    have h := block_length_le (makeU128 hi lo)
    have h1 : (varint (8 * 2 + 2)).length ≤ 1 := varint_length_le (by omega) (by omega)
    have h2 : (varint (wire (putBlock (makeU128 hi lo))).length).length ≤ 1 := varint_length_le (by omega) (by omega)
    rw [putInteger, inner, wire, List.flatMap_cons, List.flatMap_nil, List.append_nil, putRecord, List.length_append,
      List.length_append]
    omega

theorem integer_law {limit : Nat} {v : IntegerP} (hl : nestingInteger v ≤ limit) :
    merge (integerField limit) .notSet (wire (putInteger v)) = some v := by
  rw [merge_wire _ _ (fits_integer v) (by have := integer_length_le v; unfold maxMessage; omega)]
  cases v with
  | notSet => rfl
  | u64 v =>
    apply foldRecords_single
    simp only [integerField, BitVec.ofNat_toNat, BitVec.setWidth_eq]
  | u128 hi lo =>
    apply foldRecords_single
    rw [nestingInteger] at hl
    simp only [inner, integerField]
    rw [if_neg (by omega), block_law, Option.map_some, high64_makeU128, low64_makeU128]

theorem fits_values (vs : List Value) : ∀ r ∈ putValues vs, Fits r := by
  induction vs with
  | nil => intro r hr; rw [putValues] at hr; cases hr
  | cons v vs ih =>
    rw [putValues, ← List.singleton_append]
    exact fits_append (fits_inner (by decide) (by decide) _) ih

theorem fits_value (v : Value) : ∀ r ∈ putValue v, Fits r := by
  cases v <;> rw [putValue]
  · intro r hr; cases hr
  all_goals exact fits_inner (by decide) (by decide) _

theorem inner_single_length {i : Nat} {rs : List Record} {L : Nat} (h : (wire [inner i rs]).length < L) :
    (wire rs).length < L :=
  Nat.lt_of_le_of_lt (inner_length_le (List.mem_singleton.mpr rfl)) h

mutual
theorem value_law : ∀ (v : Value) (limit : Nat), nestingValue v ≤ limit → (wire (putValue v)).length < maxMessage →
    merge (valueField limit) .notSet (wire (putValue v)) = some v
  | .notSet, limit, _, hb => by
    rw [merge_wire _ _ (fits_value _) hb]
    rw [putValue]
    rfl
  | .integer v, limit, hl, hb => by
    rw [merge_wire _ _ (fits_value _) hb]
    rw [nestingValue] at hl
    obtain ⟨limit, rfl⟩ : ∃ l, limit = l + 1 := ⟨limit - 1, by omega⟩
    rw [putValue]
    apply foldRecords_single
    simp only [inner, valueField, Value.asInteger]
    rw [integer_law (by omega)]
    rfl
  | .tuple vs, limit, hl, hb => by
    rw [merge_wire _ _ (fits_value _) hb]
    rw [nestingValue] at hl
    obtain ⟨limit, rfl⟩ : ∃ l, limit = l + 1 := ⟨limit - 1, by omega⟩
    rw [putValue] at hb ⊢
    apply foldRecords_single
    simp only [inner, valueField, Value.asTuple]
    have hb' := inner_single_length hb
    rw [merge_wire _ _ (fits_values vs) hb', values_law vs limit [] (by omega) hb']
    rfl
  | .intModN v, limit, hl, hb => by
    rw [merge_wire _ _ (fits_value _) hb]
    rw [nestingValue] at hl
    obtain ⟨limit, rfl⟩ : ∃ l, limit = l + 1 := ⟨limit - 1, by omega⟩
    rw [putValue]
    apply foldRecords_single
    simp only [inner, valueField, Value.asIntModN]
    rw [integer_law (by omega)]
    rfl
  | .xorWrapper v, limit, hl, hb => by
    rw [merge_wire _ _ (fits_value _) hb]
    rw [nestingValue] at hl
    obtain ⟨limit, rfl⟩ : ∃ l, limit = l + 1 := ⟨limit - 1, by omega⟩
    rw [putValue]
    apply foldRecords_single
    simp only [inner, valueField, Value.asXorWrapper]
    rw [integer_law (by omega)]
    rfl
theorem values_law : ∀ (vs : List Value) (limit : Nat) (us : List Value), nestingValues vs ≤ limit →
    (wire (putValues vs)).length < maxMessage →
    foldRecords (tupleField limit) us (putValues vs) = some (us ++ vs)
  | [], limit, us, _, _ => by
    rw [putValues, foldRecords, List.append_nil]
  | v :: vs, limit, us, hl, hb => by
    rw [nestingValues] at hl
    obtain ⟨limit, rfl⟩ : ∃ l, limit = l + 1 := ⟨limit - 1, by omega⟩
    rw [putValues] at hb ⊢
    have hb1 : (wire (putValue v)).length < maxMessage :=
      Nat.lt_of_le_of_lt (inner_length_le (List.mem_cons_self ..)) hb
    have hb2 : (wire (putValues vs)).length < maxMessage := by
      rw [wire_cons, List.length_append] at hb; omega
    rw [foldRecords]
    have : tupleField (limit + 1) us (inner 1 (putValue v)) = some (us ++ [v]) := by
      simp only [inner, tupleField]
      rw [value_law v limit (by omega) hb1]
      rfl
    rw [this, Option.bind_some, values_law vs (limit + 1) (us ++ [v]) (by omega) hb2, List.append_assoc]
    rfl
end

theorem fits_bitsize (b : Int) : ∀ r ∈ putBitsize b, Fits r :=
  fits_number (by decide) (by decide) (signed_lt b)

theorem bitsize_law {b : Int} (h : IsInt32 b) : merge bitsizeField 0 (wire (putBitsize b)) = some b := by
  rw [merge_wire _ _ (fits_bitsize b) (by
    have := number_length_le (i := 1) (by omega) (signed_lt b)
    unfold maxMessage putBitsize
    omega)]
  exact foldRecords_int32 (fun x => x) h (fun n => rfl)

theorem fits_modType (b : Int) (m : IntegerP) : ∀ r ∈ putModType b m, Fits r := by
  unfold putModType
  rw [← List.singleton_append]
  exact fits_append (fits_inner (by decide) (by decide) _) (fits_inner (by decide) (by decide) _)

theorem modType_law {b : Int} {m : IntegerP} {limit : Nat} (h : IsInt32 b) (hl : 1 + nestingInteger m ≤ limit)
    (hb : (wire (putModType b m)).length < maxMessage) :
    merge (modTypeField limit) (0, .notSet) (wire (putModType b m)) = some (b, m) := by
  rw [merge_wire _ _ (fits_modType b m) hb]
  unfold putModType
  rw [← List.singleton_append]
  refine foldRecords_append_some (t := (b, .notSet)) (foldRecords_single ?_) (foldRecords_single ?_)
  · simp only [inner, modTypeField]
    rw [if_neg (by omega), bitsize_law h]
    rfl
  · simp only [inner, modTypeField]
    rw [if_neg (by omega), integer_law (by omega)]
    rfl

theorem fits_types (ts : List ValueType) : ∀ r ∈ putTypes ts, Fits r := by
  induction ts with
  | nil => intro r hr; rw [putTypes] at hr; cases hr
  | cons v vs ih =>
    rw [putTypes, ← List.singleton_append]
    exact fits_append (fits_inner (by decide) (by decide) _) ih

theorem fits_type (t : ValueType) : ∀ r ∈ putType t, Fits r := by
  cases t <;> rw [putType]
  · intro r hr; cases hr
  all_goals exact fits_inner (by decide) (by decide) _

mutual
theorem type_law : ∀ (t : ValueType) (limit : Nat), TypeInRange t → nestingType t ≤ limit →
    (wire (putType t)).length < maxMessage → merge (typeField limit) .notSet (wire (putType t)) = some t
  | .notSet, limit, _, _, hb => by
    rw [merge_wire _ _ (fits_type _) hb]
    rw [putType]
    rfl
  | .integer b, limit, hr, hl, hb => by
    rw [merge_wire _ _ (fits_type _) hb]
    rw [nestingType] at hl
    rw [TypeInRange] at hr
    obtain ⟨limit, rfl⟩ : ∃ l, limit = l + 1 := ⟨limit - 1, by omega⟩
    rw [putType]
    apply foldRecords_single
    simp only [inner, typeField, ValueType.asInteger]
    rw [bitsize_law hr]
    rfl
  | .tuple ts, limit, hr, hl, hb => by
    rw [merge_wire _ _ (fits_type _) hb]
    rw [nestingType] at hl
    rw [TypeInRange] at hr
    obtain ⟨limit, rfl⟩ : ∃ l, limit = l + 1 := ⟨limit - 1, by omega⟩
    rw [putType] at hb ⊢
    apply foldRecords_single
    simp only [inner, typeField, ValueType.asTuple]
    have hb' := inner_single_length hb
    rw [merge_wire _ _ (fits_types ts) hb', types_law ts limit [] hr (by omega) hb']
    rfl
  | .intModN b m, limit, hr, hl, hb => by
    rw [merge_wire _ _ (fits_type _) hb]
    rw [nestingType] at hl
    rw [TypeInRange] at hr
    obtain ⟨limit, rfl⟩ : ∃ l, limit = l + 1 := ⟨limit - 1, by omega⟩
    rw [putType] at hb ⊢
    apply foldRecords_single
    simp only [inner, typeField, ValueType.asIntModN]
    rw [modType_law hr (by omega) (inner_single_length hb)]
    rfl
  | .xorWrapper b, limit, hr, hl, hb => by
    rw [merge_wire _ _ (fits_type _) hb]
    rw [nestingType] at hl
    rw [TypeInRange] at hr
    obtain ⟨limit, rfl⟩ : ∃ l, limit = l + 1 := ⟨limit - 1, by omega⟩
    rw [putType]
    apply foldRecords_single
    simp only [inner, typeField, ValueType.asXorWrapper]
    rw [bitsize_law hr]
    rfl
theorem types_law : ∀ (ts : List ValueType) (limit : Nat) (us : List ValueType), TypesInRange ts →
    nestingTypes ts ≤ limit → (wire (putTypes ts)).length < maxMessage →
    foldRecords (tupleTypeField limit) us (putTypes ts) = some (us ++ ts)
  | [], limit, us, _, _, _ => by
    rw [putTypes, foldRecords, List.append_nil]
  | t :: ts, limit, us, hr, hl, hb => by
    rw [nestingTypes] at hl
    rw [TypesInRange] at hr
    obtain ⟨limit, rfl⟩ : ∃ l, limit = l + 1 := ⟨limit - 1, by omega⟩
    rw [putTypes] at hb ⊢
    have hb1 : (wire (putType t)).length < maxMessage :=
      Nat.lt_of_le_of_lt (inner_length_le (List.mem_cons_self ..)) hb
    have hb2 : (wire (putTypes ts)).length < maxMessage := by
      rw [wire_cons, List.length_append] at hb; omega
    rw [foldRecords]
    have : tupleTypeField (limit + 1) us (inner 1 (putType t)) = some (us ++ [t]) := by
      simp only [inner, tupleTypeField]
      rw [type_law t limit hr.1 (by omega) hb1]
      rfl
    rw [this, Option.bind_some, types_law ts (limit + 1) (us ++ [t]) hr.2 (by omega) hb2, List.append_assoc]
    rfl
end

theorem le_largest {n : Nat} {l : List Nat} (h : n ∈ l) : n ≤ largest l := by
  induction l with
  | nil => cases h
  | cons m l ih =>
    rw [largest]
    rcases List.mem_cons.mp h with rfl | h
    · omega
    · have := ih h; omega

theorem nestingValue_le {v : Value} {vs : List Value} (h : v ∈ vs) : 1 + nestingValue v ≤ nestingValues vs := by
  induction vs with
  | nil => cases h
  | cons u vs ih =>
    rw [nestingValues]
    rcases List.mem_cons.mp h with rfl | h
    · omega
    · have := ih h; omega

/-- Contents of the records of a message. -/
theorem inner_lt {i : Nat} {l rs : List Record} (hb : (wire rs).length < maxMessage) (h : inner i l ∈ rs) :
    (wire l).length < maxMessage := Nat.lt_of_le_of_lt (inner_length_le h) hb

theorem fits_word (w : CorrectionWord) : ∀ r ∈ putWord w, Fits r :=
  fits_append (fits_append (fits_append (fits_inner (by decide) (by decide) _)
    (fits_number (by decide) (by decide) (by cases w.controlLeft <;> decide)))
    (fits_number (by decide) (by decide) (by cases w.controlRight <;> decide))) (fits_map (by decide) (by decide) _ _)

theorem word_law {w : CorrectionWord} {limit : Nat} (hl : nestingWord w ≤ limit)
    (hb : (wire (putWord w)).length < maxMessage) :
    merge (wordField limit) emptyWord (wire (putWord w)) = some w := by
  rw [merge_wire _ _ (fits_word w) hb]
  unfold nestingWord at hl
  obtain ⟨seed, cl, cr, vc⟩ := w
  refine foldRecords_append_some (t := ⟨seed, cl, cr, []⟩) (foldRecords_append_some (t := ⟨seed, cl, false, []⟩)
    (foldRecords_append_some (t := ⟨seed, false, false, []⟩) (foldRecords_single ?_) ?_) ?_) ?_
  · simp only [inner, wordField, emptyWord]
    rw [if_neg (by omega), block_law]
    rfl
  · exact foldRecords_bool (fun b => (⟨seed, b, false, []⟩ : CorrectionWord)) (fun n => rfl)
  · exact foldRecords_bool (fun b => (⟨seed, cl, b, []⟩ : CorrectionWord)) (fun n => rfl)
  · refine foldRecords_map (fun vs => (⟨seed, cl, cr, vs⟩ : CorrectionWord)) _ vc [] ?_
    intro p v hv
    have h1 := nestingValue_le hv
    dsimp only at hl
    simp only [inner, wordField]
    rw [if_neg (by omega), value_law v (limit - 1) (by omega) (inner_lt hb (i := 5)
      (List.mem_append_right _ (List.mem_map.mpr ⟨v, hv, rfl⟩)))]
    rfl

theorem fits_key (k : DpfKey) : ∀ r ∈ putKey k, Fits r :=
  fits_append (fits_append (fits_append (fits_map (by decide) (by decide) _ _) (fits_map (by decide) (by decide) _ _))
    (fits_number (by decide) (by decide) (signed_lt _))) (fits_map (by decide) (by decide) _ _)

theorem key_law {k : DpfKey} {limit : Nat} (hp : IsInt32 k.party) (hl : nestingKey k ≤ limit)
    (hb : (wire (putKey k)).length < maxMessage) :
    merge (keyField limit) DpfKey.default (wire (putKey k)) = some k := by
  rw [merge_wire _ _ (fits_key k) hb]
  unfold nestingKey at hl
  obtain ⟨seed, cw, party, vc⟩ := k
  dsimp only at hp hl
  refine foldRecords_append_some (t := ⟨seed, cw, party, []⟩) (foldRecords_append_some (t := ⟨seed, cw, 0, []⟩)
    (foldRecords_append_some (t := ⟨seed, [], 0, []⟩) ?_ ?_) ?_) ?_
  · refine foldRecords_option (fun s => (⟨s, [], 0, []⟩ : DpfKey)) _ seed ?_
    intro x _
    simp only [inner, keyField, Option.getD_none]
    rw [if_neg (by omega), block_law]
    rfl
  · refine foldRecords_map (fun ws => (⟨seed, ws, 0, []⟩ : DpfKey)) _ cw [] ?_
    intro p w hw
    have h1 := le_largest (List.mem_map.mpr ⟨w, hw, rfl⟩ : 1 + nestingWord w ∈ cw.map fun w => 1 + nestingWord w)
    simp only [inner, keyField]
    rw [if_neg (by omega), word_law (by omega) (inner_lt hb (i := 2) (List.mem_append_left _
      (List.mem_append_left _ (List.mem_append_right _ (List.mem_map.mpr ⟨w, hw, rfl⟩)))))]
    rfl
  · exact foldRecords_int32 (fun x => (⟨seed, cw, x, []⟩ : DpfKey)) hp (fun n => rfl)
  · refine foldRecords_map (fun vs => (⟨seed, cw, party, vs⟩ : DpfKey)) _ vc [] ?_
    intro p v hv
    have h1 := nestingValue_le hv
    simp only [inner, keyField]
    rw [if_neg (by omega), value_law v (limit - 1) (by omega) (inner_lt hb (i := 5)
      (List.mem_append_right _ (List.mem_map.mpr ⟨v, hv, rfl⟩)))]
    rfl

theorem fits_parameters (d : DoubleBits) (p : DpfParameters) (hd : DoubleOk d p.securityParameter) :
    ∀ r ∈ putParameters d p, Fits r := by
  refine fits_append (fits_append (fits_number (by decide) (by decide) (signed_lt _))
    (fits_map (by decide) (by decide) _ _)) ?_
  split
  · intro r hr; cases hr
  · intro r hr
    rw [List.mem_singleton] at hr
    subst hr
    exact ⟨by decide, by decide, hd.1⟩

theorem parameters_law {d : DoubleBits} {p : DpfParameters} {limit : Nat} (hd : DoubleOk d p.securityParameter)
    (hr : ParametersInRange p) (hl : nestingParameters p ≤ limit)
    (hb : (wire (putParameters d p)).length < maxMessage) :
    merge (parametersField d limit) ⟨0, none, .val 0⟩ (wire (putParameters d p)) = some p := by
  rw [merge_wire _ _ (fits_parameters d p hd) hb]
  obtain ⟨log, t, sec⟩ := p
  obtain ⟨hr1, hr2⟩ := hr
  obtain ⟨_, hd2, hd3⟩ := hd
  dsimp only at hr1 hr2 hd2 hd3
  refine foldRecords_append_some (t := ⟨log, t, .val 0⟩) (foldRecords_append_some (t := ⟨log, none, .val 0⟩)
    (foldRecords_int32 (fun x => (⟨x, none, .val 0⟩ : DpfParameters)) hr1 (fun n => rfl)) ?_) ?_
  · refine foldRecords_option (fun t => (⟨log, t, .val 0⟩ : DpfParameters)) _ t ?_
    rintro t rfl
    simp only [nestingParameters] at hl
    simp only [inner, parametersField, Option.getD_none]
    rw [if_neg (by omega), type_law t (limit - 1) (hr2 t rfl) (by omega) (inner_lt hb (i := 3)
      (List.mem_append_left _ (List.mem_append_right _ (List.mem_map.mpr ⟨t, by simp, rfl⟩))))]
    rfl
  · dsimp only
    split
    · rename_i h
      rw [hd3 h]
      rfl
    · apply foldRecords_single
      simp only [parametersField, hd2]

theorem fits_partial (e : PartialEvaluation) : ∀ r ∈ putPartial e, Fits r := by
  unfold putPartial
  rw [← List.singleton_append]
  exact fits_append (fits_append (fits_inner (by decide) (by decide) _) (fits_inner (by decide) (by decide) _))
    (fits_number (by decide) (by decide) (by cases e.controlBit <;> decide))

theorem partial_law {e : PartialEvaluation} {limit : Nat} (hl : 1 ≤ limit)
    (hb : (wire (putPartial e)).length < maxMessage) :
    merge (partialField limit) ⟨0, 0, false⟩ (wire (putPartial e)) = some e := by
  rw [merge_wire _ _ (fits_partial e) hb]
  obtain ⟨pre, seed, c⟩ := e
  unfold putPartial
  rw [← List.singleton_append]
  refine foldRecords_append_some (t := ⟨pre, seed, false⟩) (foldRecords_append_some (t := ⟨pre, 0, false⟩)
    (foldRecords_single ?_) (foldRecords_single ?_)) ?_
  · simp only [inner, partialField]
    rw [if_neg (by omega), block_law]
    rfl
  · simp only [inner, partialField]
    rw [if_neg (by omega), block_law]
    rfl
  · exact foldRecords_bool (fun b => (⟨pre, seed, b⟩ : PartialEvaluation)) (fun n => rfl)

theorem fits_context (d : DoubleBits) (c : EvaluationContext) : ∀ r ∈ putContext d c, Fits r :=
  fits_append (fits_append (fits_append (fits_append (fits_map (by decide) (by decide) _ _)
    (fits_map (by decide) (by decide) _ _)) (fits_number (by decide) (by decide) (signed_lt _)))
    (fits_map (by decide) (by decide) _ _)) (fits_number (by decide) (by decide) (signed_lt _))

theorem context_law {d : DoubleBits} {c : EvaluationContext} {limit : Nat}
    (hd : ∀ p ∈ c.parameters, DoubleOk d p.securityParameter) (hr : ContextInRange c)
    (hl : nestingContext c ≤ limit) (hb : (wire (putContext d c)).length < maxMessage) :
    merge (contextField d limit) ⟨[], none, 0, [], 0⟩ (wire (putContext d c)) = some c := by
  rw [merge_wire _ _ (fits_context d c) hb]
  obtain ⟨ps, key, prev, es, level⟩ := c
  obtain ⟨hr1, hr2, hr3, hr4⟩ := hr
  dsimp only at hd hr1 hr2 hr3 hr4
  unfold nestingContext at hl
  dsimp only at hl
  refine foldRecords_append_some (t := ⟨ps, key, prev, es, 0⟩)
    (foldRecords_append_some (t := ⟨ps, key, prev, [], 0⟩)
      (foldRecords_append_some (t := ⟨ps, key, 0, [], 0⟩)
        (foldRecords_append_some (t := ⟨ps, none, 0, [], 0⟩) ?_ ?_) ?_) ?_) ?_
  · refine foldRecords_map (fun ps => (⟨ps, none, 0, [], 0⟩ : EvaluationContext)) _ ps [] ?_
    intro q p hp
    have h1 := le_largest (List.mem_map.mpr ⟨p, hp, rfl⟩ :
      1 + nestingParameters p ∈ ps.map fun p => 1 + nestingParameters p)
    simp only [inner, contextField]
    rw [if_neg (by omega), parameters_law (hd p hp) (hr1 p hp) (by omega) (inner_lt hb (i := 1)
      (List.mem_append_left _ (List.mem_append_left _ (List.mem_append_left _ (List.mem_append_left _
        (List.mem_map.mpr ⟨p, hp, rfl⟩))))))]
    rfl
  · refine foldRecords_option (fun k => (⟨ps, k, 0, [], 0⟩ : EvaluationContext)) _ key ?_
    rintro k rfl
    dsimp only at hl
    simp only [inner, contextField, Option.getD_none]
    rw [if_neg (by omega), key_law (hr2 k rfl) (by omega) (inner_lt hb (i := 2)
      (List.mem_append_left _ (List.mem_append_left _ (List.mem_append_left _ (List.mem_append_right _
        (List.mem_map.mpr ⟨k, by simp, rfl⟩))))))]
    rfl
  · exact foldRecords_int32 (fun x => (⟨ps, key, x, [], 0⟩ : EvaluationContext)) hr3 (fun n => rfl)
  · refine foldRecords_map (fun es => (⟨ps, key, prev, es, 0⟩ : EvaluationContext)) _ es [] ?_
    intro q e he
    simp only [inner, contextField]
    rw [if_neg (by omega), partial_law (by omega) (inner_lt hb (i := 4)
      (List.mem_append_left _ (List.mem_append_right _ (List.mem_map.mpr ⟨e, he, rfl⟩))))]
    rfl
  · exact foldRecords_int32 (fun x => (⟨ps, key, prev, es, x⟩ : EvaluationContext)) hr4 (fun n => rfl)

/-! ## Messages of comparison functions and gates -/

theorem fits_dcfKey (k : DcfKey) : ∀ r ∈ putDcfKey k, Fits r := fits_inner (by decide) (by decide) _

theorem dcfKey_law {k : DcfKey} {limit : Nat} (hp : IsInt32 k.party) (hl : 1 + nestingKey k ≤ limit)
    (hb : (wire (putDcfKey k)).length < maxMessage) :
    merge (dcfKeyField limit) DpfKey.default (wire (putDcfKey k)) = some k := by
  rw [merge_wire _ _ (fits_dcfKey k) hb]
  apply foldRecords_single
  simp only [inner, dcfKeyField]
  rw [if_neg (by omega), key_law hp (by omega) (inner_single_length hb)]

theorem fits_micKey (k : MicKey) : ∀ r ∈ putMicKey k, Fits r :=
  fits_append (fits_inner (by decide) (by decide) _) (fits_map (by decide) (by decide) _ _)

theorem micKey_law {k : MicKey} {limit : Nat} (hp : IsInt32 k.dcfKey.party) (hl : nestingMicKey k ≤ limit)
    (hb : (wire (putMicKey k)).length < maxMessage) :
    merge (micKeyField limit) ⟨DpfKey.default, []⟩ (wire (putMicKey k)) = some k := by
  rw [merge_wire _ _ (fits_micKey k) hb]
  unfold nestingMicKey at hl
  obtain ⟨dk, ms⟩ := k
  dsimp only at hp hl
  refine foldRecords_append_some (t := ⟨dk, []⟩) (foldRecords_single ?_) ?_
  · simp only [inner, micKeyField]
    rw [if_neg (by omega), dcfKey_law hp (by omega) (inner_lt hb (i := 1) (List.mem_append_left _
      (List.mem_singleton.mpr rfl)))]
    rfl
  · refine foldRecords_map (fun ms => (⟨dk, ms⟩ : MicKey)) _ ms [] ?_
    intro q v hv
    have h1 := le_largest (List.mem_map.mpr ⟨v, hv, rfl⟩ : 1 + nestingInteger v ∈ ms.map fun v => 1 + nestingInteger v)
    simp only [inner, micKeyField]
    rw [if_neg (by omega), integer_law (by omega)]
    rfl

theorem nestingInteger_le (v : IntegerP) : nestingInteger v ≤ 1 := by
  cases v <;> simp [nestingInteger]

theorem fits_interval (v : Interval) : ∀ r ∈ putInterval v, Fits r :=
  fits_append (fits_map (by decide) (by decide) _ _) (fits_map (by decide) (by decide) _ _)

theorem interval_law {v : Interval} {limit : Nat} (hl : 2 ≤ limit)
    (hb : (wire (putInterval v)).length < maxMessage) :
    merge (intervalField limit) ⟨none, none⟩ (wire (putInterval v)) = some v := by
  rw [merge_wire _ _ (fits_interval v) hb]
  obtain ⟨lo, hi⟩ := v
  refine foldRecords_append_some (t := ⟨lo, none⟩) ?_ ?_
  · refine foldRecords_option (fun x => (⟨x, none⟩ : Interval)) _ lo ?_
    intro x _
    have := nestingInteger_le x
    simp only [inner, intervalField, Option.getD_none]
    rw [if_neg (by omega), integer_law (by omega)]
    rfl
  · refine foldRecords_option (fun x => (⟨lo, x⟩ : Interval)) _ hi ?_
    intro x _
    have := nestingInteger_le x
    simp only [inner, intervalField, Option.getD_none]
    rw [if_neg (by omega), integer_law (by omega)]
    rfl

theorem fits_micParameters (p : MicParameters) : ∀ r ∈ putMicParameters p, Fits r :=
  fits_append (fits_number (by decide) (by decide) (signed_lt _)) (fits_map (by decide) (by decide) _ _)

theorem micParameters_law {p : MicParameters} {limit : Nat} (hr : IsInt32 p.logGroupSize) (hl : 3 ≤ limit)
    (hb : (wire (putMicParameters p)).length < maxMessage) :
    merge (micParametersField limit) ⟨0, []⟩ (wire (putMicParameters p)) = some p := by
  rw [merge_wire _ _ (fits_micParameters p) hb]
  obtain ⟨log, vs⟩ := p
  refine foldRecords_append_some (t := ⟨log, []⟩)
    (foldRecords_int32 (fun x => (⟨x, []⟩ : MicParameters)) hr (fun n => rfl)) ?_
  refine foldRecords_map (fun vs => (⟨log, vs⟩ : MicParameters)) _ vs [] ?_
  intro q v hv
  simp only [inner, micParametersField]
  rw [if_neg (by omega), interval_law (by omega) (inner_lt hb (i := 2) (List.mem_append_right _
    (List.mem_map.mpr ⟨v, hv, rfl⟩)))]
  rfl

/-! ## Messages of PIR -/

theorem fits_plain (r : PlainRequest) : ∀ x ∈ putPlain r, Fits x := by
  refine fits_append (fits_map (by decide) (by decide) _ _) ?_
  split
  · intro x hx; cases hx
  · intro x hx
    rw [List.mem_singleton] at hx
    subst hx
    exact ⟨by decide, by decide, r.seedFingerprint.isLt⟩

theorem plain_law {r : PlainRequest} {limit : Nat} (hr : PlainInRange r) (hl : nestingPlain r ≤ limit)
    (hb : (wire (putPlain r)).length < maxMessage) :
    merge (plainField limit) PlainRequest.default (wire (putPlain r)) = some r := by
  rw [merge_wire _ _ (fits_plain r) hb]
  unfold nestingPlain at hl
  unfold PlainInRange at hr
  obtain ⟨ks, fp⟩ := r
  dsimp only at hl hr
  refine foldRecords_append_some (t := ⟨ks, 0⟩) ?_ ?_
  · refine foldRecords_map (fun ks => (⟨ks, 0⟩ : PlainRequest)) _ ks [] ?_
    intro q k hk
    have h1 := le_largest (List.mem_map.mpr ⟨k, hk, rfl⟩ : 1 + nestingKey k ∈ ks.map fun k => 1 + nestingKey k)
    simp only [inner, plainField]
    rw [if_neg (by omega), key_law (hr k hk) (by omega) (inner_lt hb (i := 1) (List.mem_append_left _
      (List.mem_map.mpr ⟨k, hk, rfl⟩)))]
    rfl
  · dsimp only
    split
    · rename_i h; rw [h]; rfl
    · apply foldRecords_single
      simp only [plainField, BitVec.ofNat_toNat, BitVec.setWidth_eq]

theorem fits_helper (r : HelperRequest) : ∀ x ∈ putHelper r, Fits x :=
  fits_append (fits_map (by decide) (by decide) _ _) (fits_string (by decide) (by decide))

theorem helper_law {r : HelperRequest} {limit : Nat} (hr : ∀ p, r.plainRequest = some p → PlainInRange p)
    (hl : ∀ p, r.plainRequest = some p → 1 + nestingPlain p ≤ limit)
    (hb : (wire (putHelper r)).length < maxMessage) :
    merge (helperField limit) ⟨none, []⟩ (wire (putHelper r)) = some r := by
  rw [merge_wire _ _ (fits_helper r) hb]
  obtain ⟨p, seed⟩ := r
  refine foldRecords_append_some (t := ⟨p, []⟩) ?_ (foldRecords_string ?_ ?_)
  · refine foldRecords_option (fun p => (⟨p, []⟩ : HelperRequest)) _ p ?_
    rintro p rfl
    have h1 := hl p rfl
    simp only [inner, helperField, Option.getD_none]
    rw [if_neg (by omega), plain_law (hr p rfl) (by omega) (inner_lt hb (i := 1) (List.mem_append_left _
      (List.mem_map.mpr ⟨p, by simp, rfl⟩)))]
    rfl
  · intro h; dsimp only at h; rw [h]
  · rfl

theorem encrypted_law {b : Bytes} (hb : (wire (putEncrypted b)).length < maxMessage) :
    merge encryptedField [] (wire (putEncrypted b)) = some b := by
  unfold putEncrypted at hb ⊢
  rw [merge_wire _ _ (fits_string (by decide) (by decide)) hb]
  exact foldRecords_string (fun h => h.symm) rfl

theorem fits_leader (r : Option PlainRequest × Option Bytes) : ∀ x ∈ putLeader r, Fits x :=
  fits_append (fits_map (by decide) (by decide) _ _) (fits_map (by decide) (by decide) _ _)

theorem leader_law {p : Option PlainRequest} {e : Option Bytes} {limit : Nat}
    (hr : ∀ r, p = some r → PlainInRange r) (hl : ∀ r, p = some r → 1 + nestingPlain r ≤ limit) (h1 : 1 ≤ limit)
    (hb : (wire (putLeader (p, e))).length < maxMessage) :
    merge (leaderField limit) (none, none) (wire (putLeader (p, e))) = some (p, e) := by
  rw [merge_wire _ _ (fits_leader _) hb]
  refine foldRecords_append_some (t := (p, none)) ?_ ?_
  · refine foldRecords_option (fun p => ((p, none) : Option PlainRequest × Option Bytes)) _ p ?_
    rintro p rfl
    have h1 := hl p rfl
    simp only [inner, leaderField, Option.getD_none]
    rw [if_neg (by omega), plain_law (hr p rfl) (by omega) (inner_lt hb (i := 1) (List.mem_append_left _
      (List.mem_map.mpr ⟨p, by simp, rfl⟩)))]
    rfl
  · refine foldRecords_option (fun e => ((p, e) : Option PlainRequest × Option Bytes)) _ e ?_
    rintro e rfl
    simp only [inner, leaderField, Option.getD_none]
    rw [if_neg (by omega), encrypted_law (inner_lt hb (i := 2) (List.mem_append_right _
      (List.mem_map.mpr ⟨e, by simp, rfl⟩)))]
    rfl

theorem fits_dpfRequest (r : DpfPirRequest) : ∀ x ∈ putDpfRequest r, Fits x := by
  cases r <;> rw [putDpfRequest]
  · intro r hr; cases hr
  all_goals exact fits_inner (by decide) (by decide) _

theorem dpfRequest_law {r : DpfPirRequest} {limit : Nat} (hr : ∀ p, requestPlain r = some p → PlainInRange p)
    (hl : nestingRequest r ≤ limit + 1) (hb : (wire (putDpfRequest r)).length < maxMessage) :
    merge (dpfRequestField limit) .notSet (wire (putDpfRequest r)) = some r := by
  rw [merge_wire _ _ (fits_dpfRequest r) hb]
  cases r with
  | notSet => rfl
  | plain r =>
    simp only [nestingRequest, requestPlain] at hl
    rw [putDpfRequest] at hb ⊢
    apply foldRecords_single
    simp only [inner, dpfRequestField]
    rw [if_neg (by omega), plain_law (hr r rfl) (by omega) (inner_single_length hb)]
    rfl
  | leader p e =>
    have hl' : 2 ≤ limit := by
      unfold nestingRequest at hl
      split at hl <;> omega
    rw [putDpfRequest] at hb ⊢
    apply foldRecords_single
    simp only [inner, dpfRequestField]
    rw [if_neg (by omega), leader_law (p := p) hr (fun r hp => by
      subst hp
      simp only [nestingRequest, requestPlain] at hl
      omega) (by omega) (inner_single_length hb)]
    rfl
  | encrypted b =>
    simp only [nestingRequest, requestPlain] at hl
    rw [putDpfRequest] at hb ⊢
    apply foldRecords_single
    simp only [inner, dpfRequestField]
    rw [if_neg (by omega), encrypted_law (inner_single_length hb)]
    rfl

theorem request_law {r : PirRequest} {limit : Nat}
    (hr : ∀ d p, r = some d → requestPlain d = some p → PlainInRange p)
    (hl : ∀ d, r = some d → nestingRequest d ≤ limit) (hb : (wire (putRequest r)).length < maxMessage) :
    merge (requestField limit) none (wire (putRequest r)) = some r := by
  rw [merge_wire (rs := putRequest r) _ _ (fits_map (by decide) (by decide) _ _) hb]
  refine foldRecords_option (fun r => r) _ r ?_
  rintro d rfl
  have h := hl d rfl
  have h3 : 3 ≤ nestingRequest d := by
    unfold nestingRequest
    split <;> omega
  simp only [inner, requestField, Option.getD_none]
  rw [if_neg (by omega), dpfRequest_law (fun p => hr d p rfl) (by omega) (inner_lt hb (i := 1)
    (List.mem_map.mpr ⟨d, by simp, rfl⟩))]
  rfl

theorem response_law {r : PirResponse} {limit : Nat} (hl : 1 ≤ limit)
    (hb : (wire (putResponse r)).length < maxMessage) :
    merge (responseField limit) none (wire (putResponse r)) = some r := by
  rw [merge_wire (rs := putResponse r) _ _ (fits_map (by decide) (by decide) _ _) hb]
  refine foldRecords_option (fun r => r) _ r ?_
  rintro d rfl
  have hb' := inner_lt hb (i := 1) (List.mem_map.mpr ⟨d, by simp, rfl⟩)
  simp only [inner, responseField, Option.getD_none]
  rw [if_neg (by omega), merge_wire (rs := putDpfResponse d) _ _ (fits_map (by decide) (by decide) _ _) hb',
    show foldRecords dpfResponseField [] (putDpfResponse d) = some d from
      foldRecords_map (fun l => l) _ d [] (fun p b _ => rfl)]
  rfl

theorem denseConfig_law {n : Int} (h : IsInt64 n) (hb : (wire (putDenseConfig n)).length < maxMessage) :
    merge denseConfigField 0 (wire (putDenseConfig n)) = some n := by
  unfold putDenseConfig at hb ⊢
  rw [merge_wire _ _ (fits_number (by decide) (by decide) (signed_lt _)) hb]
  exact foldRecords_int64 (fun x => x) h (fun n => rfl)

theorem hashConfig_law {f n : Int} (hf : IsInt32 f) (h : IsInt64 n)
    (hb : (wire (putHashConfig (f, n))).length < maxMessage) :
    merge hashConfigField (0, 0) (wire (putHashConfig (f, n))) = some (f, n) := by
  rw [merge_wire (rs := putHashConfig (f, n)) _ _ (fits_append (fits_number (by decide) (by decide) (signed_lt _))
    (fits_number (by decide) (by decide) (signed_lt _))) hb]
  exact foldRecords_append_some (t := (f, 0)) (foldRecords_int32 (fun x => (x, (0 : Int))) hf (fun n => rfl))
    (foldRecords_int64 (fun x => (f, x)) h (fun n => rfl))

theorem config_law {c : PirConfig} {limit : Nat} (hr : ConfigInRange c) (hl : 1 ≤ limit)
    (hb : (wire (putConfig c)).length < maxMessage) :
    merge (configField limit) .notSet (wire (putConfig c)) = some c := by
  have hfit : ∀ x ∈ putConfig c, Fits x := by
    cases c <;> rw [putConfig]
    · intro r hr; cases hr
    all_goals exact fits_inner (by decide) (by decide) _
  rw [merge_wire _ _ hfit hb]
  cases c with
  | notSet => rfl
  | dense n =>
    apply foldRecords_single
    simp only [inner, configField]
    rw [if_neg (by omega), denseConfig_law hr (inner_single_length hb)]
    rfl
  | cuckoo f n =>
    apply foldRecords_single
    simp only [inner, configField]
    rw [if_neg (by omega), hashConfig_law hr.1 hr.2 (inner_single_length hb)]
    rfl
  | simple f n =>
    apply foldRecords_single
    simp only [inner, configField]
    rw [if_neg (by omega), hashConfig_law hr.1 hr.2 (inner_single_length hb)]
    rfl

theorem family_law {c : HashFamilyConfig} (h : IsInt32 c.hashFamily)
    (hb : (wire (putFamily c)).length < maxMessage) :
    merge familyField ⟨0, []⟩ (wire (putFamily c)) = some c := by
  rw [merge_wire (rs := putFamily c) _ _ (fits_append (fits_number (by decide) (by decide) (signed_lt _))
    (fits_string (by decide) (by decide))) hb]
  obtain ⟨f, seed⟩ := c
  refine foldRecords_append_some (t := ⟨f, []⟩)
    (foldRecords_int32 (fun x => (⟨x, []⟩ : HashFamilyConfig)) h (fun n => rfl)) (foldRecords_string ?_ rfl)
  intro h; dsimp only at h; rw [h]

theorem cuckoo_law {p : CuckooParams} {limit : Nat} (h1 : IsInt32 p.hashFamilyConfig.hashFamily)
    (h2 : IsInt32 p.numHashFunctions) (h3 : IsInt64 p.numBuckets) (hl : 1 ≤ limit)
    (hb : (wire (putCuckoo p)).length < maxMessage) :
    merge (cuckooField limit) ⟨⟨0, []⟩, 0, 0⟩ (wire (putCuckoo p)) = some p := by
  rw [merge_wire (rs := putCuckoo p) _ _ (fits_append (fits_append (fits_inner (by decide) (by decide) _)
    (fits_number (by decide) (by decide) (signed_lt _))) (fits_number (by decide) (by decide) (signed_lt _))) hb]
  obtain ⟨c, k, n⟩ := p
  dsimp only at h1 h2 h3
  refine foldRecords_append_some (t := ⟨c, k, 0⟩) (foldRecords_append_some (t := ⟨c, 0, 0⟩)
    (foldRecords_single ?_)
    (foldRecords_int32 (fun x => (⟨c, x, 0⟩ : CuckooParams)) h2 (fun n => rfl)))
    (foldRecords_int64 (fun x => (⟨c, k, x⟩ : CuckooParams)) h3 (fun n => rfl))
  simp only [inner, cuckooField]
  rw [if_neg (by omega), family_law h1 (inner_lt hb (i := 1) (List.mem_append_left _ (List.mem_append_left _
    (List.mem_singleton.mpr rfl))))]
  rfl

theorem simple_law {p : SimpleParams} {limit : Nat} (h1 : IsInt32 p.hashFamilyConfig.hashFamily)
    (h3 : IsInt64 p.numBuckets) (hl : 1 ≤ limit) (hb : (wire (putSimple p)).length < maxMessage) :
    merge (simpleField limit) ⟨⟨0, []⟩, 0⟩ (wire (putSimple p)) = some p := by
  rw [merge_wire (rs := putSimple p) _ _ (fits_append (fits_inner (by decide) (by decide) _)
    (fits_number (by decide) (by decide) (signed_lt _))) hb]
  obtain ⟨c, n⟩ := p
  dsimp only at h1 h3
  refine foldRecords_append_some (t := ⟨c, 0⟩) (foldRecords_single ?_)
    (foldRecords_int64 (fun x => (⟨c, x⟩ : SimpleParams)) h3 (fun n => rfl))
  simp only [inner, simpleField]
  rw [if_neg (by omega), family_law h1 (inner_lt hb (i := 1) (List.mem_append_left _
    (List.mem_singleton.mpr rfl)))]
  rfl

theorem public_law {c : PublicParams} {limit : Nat} (hr : PublicInRange c) (hl : 2 ≤ limit)
    (hb : (wire (putPublic c)).length < maxMessage) :
    merge (publicField limit) .notSet (wire (putPublic c)) = some c := by
  have hfit : ∀ x ∈ putPublic c, Fits x := by
    cases c <;> rw [putPublic]
    · intro r hr; cases hr
    all_goals exact fits_inner (by decide) (by decide) _
  rw [merge_wire _ _ hfit hb]
  cases c with
  | notSet => rfl
  | cuckoo p =>
    apply foldRecords_single
    simp only [inner, publicField]
    rw [if_neg (by omega), cuckoo_law hr.1 hr.2.1 hr.2.2 (by omega) (inner_single_length hb)]
    rfl
  | simple p =>
    apply foldRecords_single
    simp only [inner, publicField]
    rw [if_neg (by omega), simple_law hr.1 hr.2 (by omega) (inner_single_length hb)]
    rfl

theorem queries_law {s : Bytes} {qs : List Bytes} (hb : (wire (putQueries (s, qs))).length < maxMessage) :
    merge queriesField ([], []) (wire (putQueries (s, qs))) = some (s, qs) := by
  rw [merge_wire (rs := putQueries (s, qs)) _ _ (fits_append (fits_string (by decide) (by decide)) (fits_map (by decide) (by decide) _ _)) hb]
  refine foldRecords_append_some (t := (s, [])) (foldRecords_string ?_ rfl)
    (foldRecords_map (fun l => ((s, l) : Bytes × List Bytes)) _ qs [] (fun p b _ => rfl))
  intro h; dsimp only at h; rw [h]

theorem seed_law {s : Bytes} (hb : (wire (string 1 s)).length < maxMessage) :
    merge seedField [] (wire (string 1 s)) = some s := by
  rw [merge_wire _ _ (fits_string (by decide) (by decide)) hb]
  exact foldRecords_string (fun h => h.symm) rfl

theorem state_law {c : ClientState} {limit : Nat} (hl : 1 ≤ limit) (hb : (wire (putState c)).length < maxMessage) :
    merge (stateField limit) .notSet (wire (putState c)) = some c := by
  have hfit : ∀ x ∈ putState c, Fits x := by
    cases c <;> rw [putState]
    · intro r hr; cases hr
    all_goals exact fits_inner (by decide) (by decide) _
  rw [merge_wire _ _ hfit hb]
  cases c with
  | notSet => rfl
  | dense s =>
    apply foldRecords_single
    simp only [inner, stateField]
    rw [if_neg (by omega), seed_law (inner_single_length hb)]
    rfl
  | cuckoo s qs =>
    apply foldRecords_single
    simp only [inner, stateField]
    rw [if_neg (by omega), queries_law (inner_single_length hb)]
    rfl
  | simple s qs =>
    apply foldRecords_single
    simp only [inner, stateField]
    rw [if_neg (by omega), queries_law (inner_single_length hb)]
    rfl

end Verif.Wire
