import Verif.Lemmas.Wire
import Verif.Lemmas.PirKeys
import Verif.Lemmas.Mic
import Verif.Lemmas.DcfExact
/-!
# Lemmas: size and nesting of keys
-/
namespace Verif
open Res Spec Wire

theorem inner_length_bound {i L : Nat} {rs : List Record} (hi : i < 16) (h : (wire rs).length ≤ L) (hL : L < 2 ^ 35) :
    (putRecord (inner i rs)).length ≤ 6 + L := by
  have h1 : (varint (8 * i + 2)).length ≤ 1 := varint_length_le (by omega) (by omega)
  have h2 : (varint (wire rs).length).length ≤ 5 := varint_length_le (by omega) (by omega)
  rw [inner, putRecord, List.length_append, List.length_append]
  omega

theorem wire_single_length (r : Record) : (wire [r]).length = (putRecord r).length := by
  simp [wire]

theorem wire_length_bound {rs : List Record} {L : Nat} (h : ∀ r ∈ rs, (putRecord r).length ≤ L) :
    (wire rs).length ≤ rs.length * L := by
  induction rs with
  | nil => simp [wire]
  | cons r rs ih =>
    rw [wire_cons, List.length_append, List.length_cons, Nat.add_mul]
    have := ih fun r hr => h r (List.mem_cons_of_mem _ hr)
    have := h r List.mem_cons_self
    omega

theorem scalar_length {i : Nat} (hi : i < 16) (m : IntegerP) : (wire [inner i (putInteger m)]).length ≤ 30 := by
  rw [wire_single_length]
  exact inner_length_bound hi (integer_length_le m) (by decide)

mutual
theorem represents_length : ∀ (t : Ty) (v : Value) (x : t.den), Represents t v x → messageBytes t < 2 ^ 35 →
    (wire (putValue v)).length ≤ messageBytes t ∧ nestingValue v ≤ nestingTy t
  | .uint _, v, x, h, _ => by
    obtain ⟨i, rfl, _⟩ := h
    refine ⟨?_, ?_⟩
    · rw [putValue, messageBytes]
      · exact scalar_length (by decide) i
      · simp
    · rw [nestingValue, nestingTy]
      · have := nestingInteger_le i; omega
      · simp
  | .intModN _ _ _ _, v, x, h, _ => by
    obtain ⟨i, rfl, _⟩ := h
    refine ⟨?_, ?_⟩
    · rw [putValue, messageBytes]
      · exact scalar_length (by decide) i
      · simp
    · rw [nestingValue, nestingTy]
      · have := nestingInteger_le i; omega
      · simp
  | .xorWrapper _, v, x, h, _ => by
    obtain ⟨i, rfl, _⟩ := h
    refine ⟨?_, ?_⟩
    · rw [putValue, messageBytes]
      · exact scalar_length (by decide) i
      · simp
    · rw [nestingValue, nestingTy]
      · have := nestingInteger_le i; omega
      · simp
  | .tuple ts, v, x, h, hL => by
    obtain ⟨vs, rfl, hv⟩ := h
    rw [messageBytes] at hL ⊢
    obtain ⟨e1, e2⟩ := representsAll_length ts vs x hv (by omega)
    refine ⟨?_, ?_⟩
    · rw [putValue, wire_single_length]
      exact inner_length_bound (by decide) e1 (by omega)
    · rw [nestingValue, nestingTy]
      omega
theorem representsAll_length : ∀ (ts : Tys) (vs : List Value) (x : ts.den), RepresentsAll ts vs x →
    messageBytesAll ts < 2 ^ 35 →
    (wire (putValues vs)).length ≤ messageBytesAll ts ∧ nestingValues vs ≤ nestingTys ts
  | .one t, vs, x, h, hL => by
    obtain ⟨v, rfl, hv⟩ := h
    rw [messageBytesAll] at hL ⊢
    obtain ⟨e1, e2⟩ := represents_length t v x hv (by omega)
    refine ⟨?_, ?_⟩
    · rw [putValues, putValues, wire_single_length]
      exact inner_length_bound (by decide) e1 (by omega)
    · rw [nestingValues, nestingValues, nestingTys]
      omega
  | .cons t ts, vs, x, h, hL => by
    obtain ⟨v, vs', rfl, hv, hvs⟩ := h
    rw [messageBytesAll] at hL ⊢
    obtain ⟨e1, e2⟩ := represents_length t v x.1 hv (by omega)
    obtain ⟨e3, e4⟩ := representsAll_length ts vs' x.2 hvs (by omega)
    refine ⟨?_, ?_⟩
    · rw [putValues, wire_cons, List.length_append]
      have := inner_length_bound (i := 1) (by decide) e1 (by omega)
      omega
    · rw [nestingValues, nestingTys]
      omega
end

/-- The values in a key and its number of correction words. -/
structure KeyBound (nest size : Nat) (k : DpfKey) : Prop where
  party : k.party = 0 ∨ k.party = 1
  words : k.correctionWords.length ≤ 128
  value : ∀ w ∈ k.correctionWords, w.valueCorrection.length ≤ 16 ∧
    ∀ v ∈ w.valueCorrection, nestingValue v ≤ nest ∧ (wire (putValue v)).length ≤ size
  last : k.lastLevelValueCorrection.length ≤ 16 ∧
    ∀ v ∈ k.lastLevelValueCorrection, nestingValue v ≤ nest ∧ (wire (putValue v)).length ≤ size

theorem values_length {i : Nat} (hi : i < 16) {size : Nat} (hsz : size ≤ 1000000) {vs : List Value}
    (hl : vs.length ≤ 16) (h : ∀ v ∈ vs, (wire (putValue v)).length ≤ size) :
    (wire (vs.map fun v => inner i (putValue v))).length ≤ 16 * (6 + size) := by
  have := wire_length_bound (rs := vs.map fun v => inner i (putValue v)) (L := 6 + size) (by
    intro r hr
    obtain ⟨v, hv, rfl⟩ := List.mem_map.mp hr
    exact inner_length_bound hi (h v hv) (by omega))
  rw [List.length_map] at this
  exact Nat.le_trans this (Nat.mul_le_mul_right _ hl)

theorem toNat_bool_lt (b : Bool) : b.toNat < 2 ^ 64 := by cases b <;> decide

theorem KeyBound.word_length {nest size : Nat} {k : DpfKey} (h : KeyBound nest size k) (hsz : size ≤ 1000000)
    {w : CorrectionWord} (hw : w ∈ k.correctionWords) : (wire (putWord w)).length ≤ 146 + 16 * size := by
  obtain ⟨e1, e2⟩ := h.value w hw
  have h1 := values_length (i := 5) (by decide) hsz e1 fun v hv => (e2 v hv).2
  have h2 := number_length_le (i := 2) (by decide) (toNat_bool_lt w.controlLeft)
  have h3 := number_length_le (i := 3) (by decide) (toNat_bool_lt w.controlRight)
  have h4 := inner_length_bound (i := 1) (by decide) (block_length_le w.seed) (by decide)
  unfold putWord
  rw [wire_append, wire_append, wire_append, List.length_append, List.length_append, List.length_append,
    wire_single_length]
  omega

/-- A key of this kind needs at most this many bytes. -/
theorem KeyBound.length {nest size : Nat} {k : DpfKey} (h : KeyBound nest size k) (hsz : size ≤ 1000000) :
    (wire (putKey k)).length ≤ 135 + k.correctionWords.length * (152 + 16 * size) + 16 * size := by
  have h1 := values_length (i := 5) (by decide) hsz h.last.1 fun v hv => (h.last.2 v hv).2
  have h2 := number_length_le (i := 3) (n := signed k.party) (by decide) (signed_lt _)
  have h3 : (wire (k.seed.toList.map fun x => inner 1 (putBlock x))).length ≤ 28 := by
    cases k.seed with
    | none => simp [wire]
    | some x =>
      show (wire [inner 1 (putBlock x)]).length ≤ 28
      rw [wire_single_length]
      exact inner_length_bound (by decide) (block_length_le x) (by decide)
  have h4 := wire_length_bound (rs := k.correctionWords.map fun w => inner 2 (putWord w)) (L := 152 + 16 * size) (by
    intro r hr
    obtain ⟨w, hw, rfl⟩ := List.mem_map.mp hr
    have := inner_length_bound (i := 2) (by decide) (h.word_length hsz hw) (by omega)
    omega)
  rw [List.length_map] at h4
  unfold putKey
  rw [wire_append, wire_append, wire_append, List.length_append, List.length_append, List.length_append]
  omega

theorem largest_le {l : List Nat} {n : Nat} (h : ∀ m ∈ l, m ≤ n) : largest l ≤ n := by
  induction l with
  | nil => exact Nat.zero_le _
  | cons m l ih =>
    rw [largest]
    have := h m List.mem_cons_self
    have := ih fun m hm => h m (List.mem_cons_of_mem _ hm)
    omega

theorem nestingValues_le {vs : List Value} {n : Nat} (h : ∀ v ∈ vs, nestingValue v ≤ n) : nestingValues vs ≤ 1 + n := by
  induction vs with
  | nil => rw [nestingValues]; omega
  | cons v vs ih =>
    rw [nestingValues]
    have := h v List.mem_cons_self
    have := ih fun v hv => h v (List.mem_cons_of_mem _ hv)
    omega

theorem KeyBound.nesting {nest size : Nat} {k : DpfKey} (h : KeyBound nest size k) : nestingKey k ≤ 2 + nest := by
  unfold nestingKey
  have h1 := nestingValues_le fun v hv => (h.last.2 v hv).1
  have h2 := largest_le (n := 2 + nest) (l := k.correctionWords.map fun w => 1 + nestingWord w) (by
    intro m hm
    obtain ⟨w, hw, rfl⟩ := List.mem_map.mp hm
    unfold nestingWord
    have := nestingValues_le fun v hv => ((h.value w hw).2 v hv).1
    omega)
  omega

theorem KeyBound.isInt32 {nest size : Nat} {k : DpfKey} (h : KeyBound nest size k) : IsInt32 k.party := by
  rcases h.party with h | h <;> rw [h] <;> decide

theorem KeyBound.parse {nest size limit : Nat} {k : DpfKey} (h : KeyBound nest size k) (hsz : size ≤ 1000000)
    (hl : nest + 2 ≤ limit) : parseKey limit (serializeKey k) = some k := by
  refine key_law h.isInt32 (by have := h.nesting; omega) ?_
  have h1 := h.length hsz
  have h2 := Nat.mul_le_mul_right (152 + 16 * size) h.words
  unfold maxMessage
  omega

theorem PirKey.bound {k : DpfKey} (h : PirKey k) : KeyBound 2 30 k := by
  obtain ⟨_, h1, h2, h3, i, h4⟩ := h
  refine ⟨h1, h2, ?_, ?_⟩
  · intro w hw
    rw [h3 w hw]
    exact ⟨by decide, fun v hv => by cases hv⟩
  · rw [h4]
    refine ⟨by simp, ?_⟩
    intro v hv
    rw [List.mem_singleton.mp hv, nestingValue, putValue]
    exact ⟨by have := nestingInteger_le i; omega, scalar_length (by decide) i⟩

theorem inner_length_short {i L : Nat} {rs : List Record} (hi : i < 16) (h : (wire rs).length ≤ L) (hL : L < 128) :
    (putRecord (inner i rs)).length ≤ 2 + L := by
  have h1 : (varint (8 * i + 2)).length ≤ 1 := varint_length_le (by omega) (by omega)
  have h2 : (varint (wire rs).length).length ≤ 1 := varint_length_le (by omega) (by omega)
  rw [inner, putRecord, List.length_append, List.length_append]
  omega

theorem bool_length_le {i : Nat} (hi : i < 16) (b : Bool) : (wire (number i b.toNat)).length ≤ 2 := by
  cases b with
  | false => simp [number, wire]
  | true =>
    have h1 : (varint (8 * i)).length ≤ 1 := varint_length_le (by omega) (by omega)
    have h2 : (varint 1).length ≤ 1 := varint_length_le (by omega) (by omega)
    simp only [Bool.toNat_true, number, if_neg (by decide : ¬ (1 : Nat) = 0), wire_single_length, putRecord,
      List.length_append]
    omega

/-- A key of a request needs at most 4000 bytes. -/
theorem PirKey.length {k : DpfKey} (h : PirKey k) : (wire (putKey k)).length ≤ 4000 := by
  obtain ⟨_, _, h2, h3, i, h4⟩ := h
  have h5 := wire_length_bound (rs := k.correctionWords.map fun w => inner 2 (putWord w)) (L := 30) (by
    intro r hr
    obtain ⟨w, hw, rfl⟩ := List.mem_map.mp hr
    refine inner_length_short (by decide) (L := 28) ?_ (by decide)
    have h2 := bool_length_le (i := 2) (by decide) w.controlLeft
    have h3' := bool_length_le (i := 3) (by decide) w.controlRight
    have h4 := inner_length_short (i := 1) (by decide) (block_length_le w.seed) (by decide)
    unfold putWord
    rw [h3 w hw, List.map_nil, List.append_nil, wire_append, wire_append, List.length_append, List.length_append,
      wire_single_length]
    omega)
  rw [List.length_map] at h5
  have h6 := number_length_le (i := 3) (n := signed k.party) (by decide) (signed_lt _)
  have h7 : (wire (k.seed.toList.map fun x => inner 1 (putBlock x))).length ≤ 28 := by
    cases k.seed with
    | none => simp [wire]
    | some x =>
      show (wire [inner 1 (putBlock x)]).length ≤ 28
      rw [wire_single_length]
      exact inner_length_bound (by decide) (block_length_le x) (by decide)
  have h8 : (wire [inner 5 (putValue (.xorWrapper i))]).length ≤ 36 := by
    rw [wire_single_length, putValue]
    exact inner_length_bound (by decide) (scalar_length (by decide) i) (by decide)
  unfold putKey
  rw [h4, List.map_singleton, wire_append, wire_append, wire_append, List.length_append, List.length_append,
    List.length_append]
  omega

theorem plain_nesting {r : PlainRequest} (h : ∀ k ∈ r.dpfKeys, PirKey k) : nestingPlain r ≤ 5 := by
  unfold nestingPlain
  refine largest_le ?_
  intro x hx
  obtain ⟨k, hk, rfl⟩ := List.mem_map.mp hx
  have := (PirKey.bound (h k hk)).nesting
  omega

theorem plain_inRange {r : PlainRequest} (h : ∀ k ∈ r.dpfKeys, PirKey k) : PlainInRange r :=
  fun k hk => (PirKey.bound (h k hk)).isInt32

theorem plain_length {r : PlainRequest} (h : ∀ k ∈ r.dpfKeys, PirKey k) :
    (wire (putPlain r)).length ≤ r.dpfKeys.length * 4006 + 5 := by
  have h5 := wire_length_bound (rs := r.dpfKeys.map fun k => inner 1 (putKey k)) (L := 4006) (by
    intro x hx
    obtain ⟨k, hk, rfl⟩ := List.mem_map.mp hx
    exact inner_length_bound (by decide) (PirKey.length (h k hk)) (by decide))
  rw [List.length_map] at h5
  have h6 : (wire (if r.seedFingerprint = 0 then []
      else [((2, .fixed32 r.seedFingerprint.toNat) : Record)])).length ≤ 5 := by
    split
    · simp [wire]
    · have h1 : (varint (8 * 2 + 5)).length ≤ 1 := varint_length_le (by omega) (by omega)
      rw [wire_single_length, putRecord, List.length_append, littleEndian_length]
      omega
  unfold putPlain
  rw [wire_append, List.length_append]
  omega

theorem HelperMessage.length {n : Nat} {m : HelperRequest} (h : HelperMessage n m) (hn : n ≤ 2 ^ 19) :
    (wire (putHelper m)).length ≤ n * 4006 + 29 := by
  obtain ⟨h1, r, h2, h3, h4⟩ := h
  have h7 := plain_length h4
  rw [h3] at h7
  have h8 := inner_length_bound (i := 1) (by decide) h7 (by omega)
  have h9 : (wire (string 2 m.oneTimePadSeed)).length ≤ 18 := by
    have h1' : (varint (8 * 2 + 2)).length ≤ 1 := varint_length_le (by omega) (by omega)
    have h2' : (varint 16).length ≤ 1 := varint_length_le (by omega) (by omega)
    unfold string
    split
    · simp [wire]
    · rw [wire_single_length, putRecord, List.length_append, List.length_append, h1]
      omega
  unfold putHelper
  rw [h2, wire_append, List.length_append]
  show (wire [inner 1 (putPlain r)]).length + _ ≤ _
  rw [wire_single_length]
  omega

theorem HelperMessage.parse {n limit : Nat} {m : HelperRequest} (h : HelperMessage n m) (hn : n ≤ 2 ^ 19)
    (hl : 6 ≤ limit) : parseHelper limit (wire (putHelper m)) = some m := by
  have hlen := HelperMessage.length h hn
  obtain ⟨h1, r, h2, h3, h4⟩ := h
  have hnest := plain_nesting h4
  refine helper_law (fun p hp => ?_) (fun p hp => ?_) ?_
  · rw [h2] at hp
    cases hp
    exact plain_inRange h4
  · rw [h2] at hp
    cases hp
    omega
  · unfold maxMessage
    omega

/-! ### Generated keys -/

theorem perBlock_le (t : Ty) : perBlock t ≤ 16 := by
  unfold perBlock
  split
  · exact Nat.div_le_self _ _
  · decide

theorem represents_bound {t : Ty} {v : Value} {x : t.den} (h : Represents t v x) {size : Nat}
    (hsz : messageBytes t ≤ size) (hs : size ≤ 1000000) :
    nestingValue v ≤ nestingTy t ∧ (wire (putValue v)).length ≤ size := by
  obtain ⟨e1, e2⟩ := represents_length t v x h (by omega)
  exact ⟨e2, by omega⟩

/-- Keys of the textbook algorithm are of this kind. -/
theorem areKeys_bound {aes : U128 → U128 → U128} {params : List DpfParameters} {T : Nat → Ty} {depth : Nat → Nat}
    {alpha : U128} {b : (h : Nat) → (T h).den} {seed0 seed1 : U128} {k0 k1 : DpfKey}
    (g : AreKeys aes params T depth alpha b seed0 seed1 k0 k1)
    (hpos : 0 < params.length) (h128 : depth (params.length - 1) ≤ 128) {nest size : Nat} (hs : size ≤ 1000000)
    (hn : ∀ h < params.length, nestingTy (T h) ≤ nest) (hsz : ∀ h < params.length, messageBytes (T h) ≤ size) :
    KeyBound nest size k0 ∧ KeyBound nest size k1 := by
  have hv : ∀ h < params.length, (corrections params depth k0 h).length ≤ 16 ∧
      ∀ v ∈ corrections params depth k0 h, nestingValue v ≤ nest ∧ (wire (putValue v)).length ≤ size := by
    intro h hh
    obtain ⟨e1, e2⟩ := g.value h hh
    refine ⟨by rw [e1]; exact perBlock_le _, ?_⟩
    intro v hv
    obtain ⟨i, hi, rfl⟩ := List.mem_iff_getElem.mp hv
    obtain ⟨_, _, _, _, hr⟩ := e2 i _ (List.getElem?_eq_getElem hi)
    obtain ⟨e3, e4⟩ := represents_bound hr (hsz h hh) hs
    exact ⟨Nat.le_trans e3 (hn h hh), e4⟩
  have hlast : k0.lastLevelValueCorrection.length ≤ 16 ∧
      ∀ v ∈ k0.lastLevelValueCorrection, nestingValue v ≤ nest ∧ (wire (putValue v)).length ≤ size := by
    have := hv (params.length - 1) (by omega)
    unfold corrections at this
    rw [if_pos (by omega)] at this
    exact this
  have hwords : ∀ w ∈ k0.correctionWords, w.valueCorrection.length ≤ 16 ∧
      ∀ v ∈ w.valueCorrection, nestingValue v ≤ nest ∧ (wire (putValue v)).length ≤ size := by
    intro w hw
    obtain ⟨t, ht, rfl⟩ := List.mem_iff_getElem.mp hw
    have hw' := g.word t _ (List.getElem?_eq_getElem ht)
    have := hw'.2.2.2
    by_cases hex : ∃ h < params.length, depth h = t
    · obtain ⟨h, hh, rfl⟩ := hex
      have hne : h + 1 ≠ params.length := by
        intro he
        have := g.words
        rw [show params.length - 1 = h by omega] at this
        omega
      have := hv h hh
      unfold corrections at this
      rw [if_neg hne, List.getElem?_eq_getElem ht] at this
      exact this
    · rw [this fun h hh he => hex ⟨h, hh, he⟩]
      exact ⟨by decide, fun v hv => by cases hv⟩
  refine ⟨⟨Or.inl g.key0.2, by rw [g.words]; exact h128, hwords, hlast⟩,
    ⟨Or.inr g.key1.2, by rw [← g.shared.1, g.words]; exact h128, by rw [← g.shared.1]; exact hwords,
      by rw [← g.shared.2]; exact hlast⟩⟩

theorem Spec.Setup.params_pos {fp : FpEnv} {params : List DpfParameters} {T : Nat → Ty} {d : Dpf}
    (hs : Setup fp params T d) : 0 < params.length := by
  have h1 := hs.wf.pos
  rw [hs.toCreated.n_eq] at h1
  exact h1

theorem generated_bound {fp : FpEnv} {params : List DpfParameters} {T : Nat → Ty} {d : Dpf}
    (hs : Setup fp params T d) (env : Env) {alpha : U128} (halpha : alpha.toNat < 2 ^ lastLogSize params)
    {beta : List Value} {b : (h : Nat) → (T h).den} (hb : BetasRepresent params T beta b) (seed0 seed1 : U128)
    {nest size : Nat} (hsz : size ≤ 1000000) (hn : ∀ h < params.length, nestingTy (T h) ≤ nest)
    (hm : ∀ h < params.length, messageBytes (T h) ≤ size) :
    ∃ k0 k1, d.generateKeysIncremental env alpha beta seed0 seed1 = ok (k0, k1) ∧ KeyBound nest size k0 ∧
      KeyBound nest size k1 := by
  obtain ⟨k0, k1, h1, g⟩ := C69_generateKeys fp params T d hs env _ hs.isDepth alpha halpha beta b hb seed0 seed1
  have hpos := hs.params_pos
  refine ⟨k0, k1, h1, areKeys_bound g hpos ?_ hsz hn hm⟩
  have h2 := hs.wf.tree_le (params.length - 1)
  have h3 := hs.wf.log_le (params.length - 1)
  rw [Dpf.depth_eq hs hs.isDepth (by omega)]
  omega

/-- Keys of comparison functions. -/
theorem Spec.DcfSetup.generated_bound {fp : FpEnv} {p : DpfParameters} {T : Ty} {c : Dcf} (hs : DcfSetup fp p T c)
    (env : Env) {alpha : U128} (halpha : alpha.toNat < 2 ^ p.logDomainSize.toNat) {beta : Value}
    {b : T.den} (hb : AcceptedBeta T alpha beta b) (seed0 seed1 : U128) {size : Nat} (hsz : size ≤ 1000000)
    (hm : messageBytes T ≤ size) :
    ∃ k0 k1, c.generateKeys env alpha beta seed0 seed1 = ok (k0, k1) ∧ KeyBound (nestingTy T) size k0 ∧
      KeyBound (nestingTy T) size k1 := by
  have hpos := hs.log_pos
  rw [hs.generateKeys_unfold env alpha beta seed0 seed1]
  have hlast := hs.lastLogSize_eq
  refine Verif.generated_bound hs.setup env ?_ (hs.betasRepresent hb) seed0 seed1 hsz (fun _ _ => Nat.le_refl _)
    (fun _ _ => hm)
  rw [Dpf.shr_toNat, hlast]
  have : 2 ^ p.logDomainSize.toNat = 2 ^ (p.logDomainSize.toNat - 1) * 2 := by rw [← Nat.pow_succ]; congr 1; omega
  omega

theorem KeyBound.length_small {nest : Nat} {k : DpfKey} (h : KeyBound nest 30 k) :
    (wire (putKey k)).length ≤ 100000 := by
  have h1 := h.length (by decide)
  have h2 := Nat.mul_le_mul_right (152 + 16 * 30) h.words
  omega

/-- Keys of gates. -/
theorem micKey_parse {limit : Nat} {k : MicKey} (h : KeyBound 2 30 k.dcfKey)
    (hz : k.outputMaskShare.length ≤ 2 ^ 25) (hl : 6 ≤ limit) : parseMicKey limit (wire (putMicKey k)) = some k := by
  refine micKey_law h.isInt32 ?_ ?_
  · unfold nestingMicKey
    have h1 := h.nesting
    have h2 := largest_le (n := 2) (l := k.outputMaskShare.map fun v => 1 + nestingInteger v) (by
      intro m hm
      obtain ⟨v, _, rfl⟩ := List.mem_map.mp hm
      have := nestingInteger_le v
      omega)
    omega
  · have h1 := wire_length_bound (rs := k.outputMaskShare.map fun v => inner 2 (putInteger v)) (L := 30) (by
      intro r hr
      obtain ⟨v, _, rfl⟩ := List.mem_map.mp hr
      exact inner_length_bound (by decide) (integer_length_le v) (by decide))
    have h2 : (wire (putDcfKey k.dcfKey)).length ≤ 100006 := by
      unfold putDcfKey
      rw [wire_single_length]
      exact inner_length_bound (by decide) h.length_small (by decide)
    have h3 := inner_length_bound (i := 1) (by decide) h2 (by decide)
    rw [List.length_map] at h1
    unfold putMicKey maxMessage
    rw [wire_append, List.length_append, wire_single_length]
    omega

end Verif
