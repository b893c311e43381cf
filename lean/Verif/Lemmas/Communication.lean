import Verif.Spec.Communication
import Verif.Lemmas.WireKeys
import Verif.Lemmas.KeyGenErrors
import Verif.Lemmas.Network
import Verif.Lemmas.ServerSafety
import Verif.Lemmas.OtherType
/-!
# Lemmas: bytes that are sent
-/
namespace Verif
open Res Spec Wire

theorem sum_map_add {α : Type} (f g : α → Nat) (l : List α) :
    (l.map fun x => f x + g x).sum = (l.map f).sum + (l.map g).sum := by
  induction l with
  | nil => rfl
  | cons a l ih => simp only [List.map_cons, List.sum_cons, ih]; omega

theorem sum_map_le {α : Type} {f g : α → Nat} {l : List α} (h : ∀ x ∈ l, f x ≤ g x) : (l.map f).sum ≤ (l.map g).sum := by
  induction l with
  | nil => exact Nat.le_refl _
  | cons a l ih =>
    simp only [List.map_cons, List.sum_cons]
    have := h a List.mem_cons_self
    have := ih fun x hx => h x (List.mem_cons_of_mem _ hx)
    omega

theorem le_sum_map {α : Type} (f : α → Nat) {l : List α} {x : α} (h : x ∈ l) : f x ≤ (l.map f).sum := by
  induction l with
  | nil => cases h
  | cons a l ih =>
    simp only [List.map_cons, List.sum_cons]
    rcases List.mem_cons.mp h with rfl | h
    · omega
    · have := ih h; omega

theorem sum_map_const {α : Type} (n : Nat) (l : List α) : (l.map fun _ => n).sum = l.length * n := by
  induction l with
  | nil => simp
  | cons a l ih => rw [List.map_cons, List.sum_cons, ih, List.length_cons, Nat.succ_mul]; omega

/-- What belongs to one of the first `D` places is counted once. -/
theorem sum_places (place g : Nat → Nat) (hs : List Nat) (D : Nat) :
    ((List.range D).map fun t => (hs.map fun h => if place h = t then g h else 0).sum).sum =
      (hs.map fun h => if place h < D then g h else 0).sum := by
  induction D with
  | zero =>
    induction hs with
    | nil => rfl
    | cons h hs ih =>
      rw [List.map_cons, List.sum_cons, ← ih, if_neg (Nat.not_lt_zero _)]
      rfl
  | succ D ih =>
    rw [List.range_succ, List.map_append, List.sum_append, ih]
    simp only [List.map_cons, List.map_nil, List.sum_cons, List.sum_nil, Nat.add_zero]
    rw [← sum_map_add]
    congr 1
    apply List.map_congr_left
    intro h _
    by_cases h1 : place h < D
    · rw [if_pos h1, if_neg (by omega), if_pos (by omega)]; omega
    · by_cases h2 : place h = D
      · rw [if_neg h1, if_pos h2, if_pos (by omega)]; omega
      · rw [if_neg h1, if_neg h2, if_neg (by omega)]

theorem wire_length_sum (rs : List Record) : (wire rs).length = (rs.map fun r => (putRecord r).length).sum := by
  induction rs with
  | nil => rfl
  | cons r rs ih => rw [wire_cons, List.length_append, ih, List.map_cons, List.sum_cons]

/-- The bytes of values, with headers. -/
def valuesSize (vs : List Value) : Nat := (wire (vs.map fun v => inner 5 (putValue v))).length

theorem party_length {p : Int} (h : p = 0 ∨ p = 1) : (wire (number 3 (signed p))).length ≤ 2 := by
  rcases h with rfl | rfl
  · exact bool_length_le (i := 3) (by decide) false
  · exact bool_length_le (i := 3) (by decide) true

theorem seed_field_length (s : Option U128) : (wire (s.toList.map fun x => inner 1 (putBlock x))).length ≤ 24 := by
  cases s with
  | none => simp [wire]
  | some x =>
    show (wire [inner 1 (putBlock x)]).length ≤ 24
    rw [wire_single_length]
    exact inner_length_short (by decide) (block_length_le x) (by decide)

theorem putWord_length (w : CorrectionWord) : (wire (putWord w)).length ≤ 28 + valuesSize w.valueCorrection := by
  have h2 := bool_length_le (i := 2) (by decide) w.controlLeft
  have h3 := bool_length_le (i := 3) (by decide) w.controlRight
  have h4 := inner_length_short (i := 1) (by decide) (block_length_le w.seed) (by decide)
  unfold putWord valuesSize
  rw [wire_append, wire_append, wire_append, List.length_append, List.length_append, List.length_append,
    wire_single_length]
  omega

/-- The bytes of a key, given those of its values. -/
theorem putKey_length {k : DpfKey} (hp : k.party = 0 ∨ k.party = 1)
    (hw : ∀ w ∈ k.correctionWords, valuesSize w.valueCorrection < 2 ^ 34) :
    (wire (putKey k)).length ≤ 26 + 34 * k.correctionWords.length +
      (k.correctionWords.map fun w => valuesSize w.valueCorrection).sum + valuesSize k.lastLevelValueCorrection := by
  have h1 := party_length hp
  have h2 := seed_field_length k.seed
  have h3 : (wire (k.correctionWords.map fun w => inner 2 (putWord w))).length ≤
      34 * k.correctionWords.length + (k.correctionWords.map fun w => valuesSize w.valueCorrection).sum := by
    rw [wire_length_sum, List.map_map]
    generalize k.correctionWords = ws at hw
    induction ws with
    | nil => simp
    | cons w ws ih =>
      simp only [List.map_cons, List.sum_cons, List.length_cons, Function.comp]
      have e1 := hw w List.mem_cons_self
      have e2 := ih fun w hw' => hw w (List.mem_cons_of_mem _ hw')
      have e3 := inner_length_bound (i := 2) (by decide) (putWord_length w) (by omega)
      omega
  unfold putKey
  rw [wire_append, wire_append, wire_append, List.length_append, List.length_append, List.length_append]
  unfold valuesSize at *
  omega

/-- Bytes of the keys of the textbook algorithm. -/
theorem areKeys_length {aes : U128 → U128 → U128} {params : List DpfParameters} {T : Nat → Ty} {depth : Nat → Nat}
    {alpha : U128} {b : (h : Nat) → (T h).den} {seed0 seed1 : U128} {k0 k1 : DpfKey}
    (g : AreKeys aes params T depth alpha b seed0 seed1 k0 k1)
    (hpos : 0 < params.length) (hsz : levelBytes T params.length < 2 ^ 34) :
    (serializeKey k0).length ≤ keyBytes T params.length (depth (params.length - 1)) ∧
      (serializeKey k1).length ≤ keyBytes T params.length (depth (params.length - 1)) := by
  have hsmall : ∀ h < params.length, perBlock (T h) * (messageBytes (T h) + 6) < 2 ^ 34 := fun h hh =>
    Nat.lt_of_le_of_lt (le_sum_map (fun h => perBlock (T h) * (messageBytes (T h) + 6)) (List.mem_range.mpr hh)) hsz
  have hbytes : ∀ h < params.length, messageBytes (T h) < 2 ^ 34 := by
    intro h hh
    have h1 := hsmall h hh
    have h2 : 1 * (messageBytes (T h) + 6) ≤ perBlock (T h) * (messageBytes (T h) + 6) :=
      Nat.mul_le_mul_right _ (perBlock_pos _)
    omega
  have hv : ∀ h < params.length, valuesSize (corrections params depth k0 h) ≤
      perBlock (T h) * (messageBytes (T h) + 6) := by
    intro h hh
    obtain ⟨e1, e2⟩ := g.value h hh
    unfold valuesSize
    have := wire_length_bound (rs := (corrections params depth k0 h).map fun v => inner 5 (putValue v))
      (L := messageBytes (T h) + 6) (by
        intro r hr
        obtain ⟨v, hv, rfl⟩ := List.mem_map.mp hr
        obtain ⟨i, hi, rfl⟩ := List.mem_iff_getElem.mp hv
        obtain ⟨_, _, _, _, hr⟩ := e2 i _ (List.getElem?_eq_getElem hi)
        have h1 := hbytes h hh
        have h2 := (represents_length _ _ _ hr (by omega)).1
        have h3 := inner_length_bound (i := 5) (by decide) h2 (by omega)
        omega)
    rw [List.length_map, e1] at this
    exact this
  -- the values in the word at depth `t` are those of the levels at this depth
  have hword : ∀ (t : Nat) (ht : t < k0.correctionWords.length),
      valuesSize (k0.correctionWords[t]).valueCorrection ≤ ((List.range (params.length - 1)).map fun h =>
        if depth h = t then perBlock (T h) * (messageBytes (T h) + 6) else 0).sum ∧
      valuesSize (k0.correctionWords[t]).valueCorrection < 2 ^ 34 := by
    intro t ht
    have hw' := (g.word t _ (List.getElem?_eq_getElem ht)).2.2.2
    by_cases hex : ∃ h < params.length, depth h = t
    · obtain ⟨h, hh, rfl⟩ := hex
      have hne : h + 1 ≠ params.length := by
        intro he
        have := g.words
        rw [show params.length - 1 = h by omega] at this
        omega
      have h1 := hv h hh
      unfold corrections at h1
      rw [if_neg hne, List.getElem?_eq_getElem ht] at h1
      have h2 := le_sum_map (fun j => if depth j = depth h then perBlock (T j) * (messageBytes (T j) + 6) else 0)
        (List.mem_range.mpr (by omega : h < params.length - 1))
      simp only [if_pos] at h2
      have h3 := hsmall h hh
      simp only [Option.map_some, Option.getD_some] at h1
      exact ⟨Nat.le_trans h1 h2, by omega⟩
    · rw [hw' fun h hh he => hex ⟨h, hh, he⟩]
      exact ⟨by simp [valuesSize, wire], by simp [valuesSize, wire]⟩
  have hlast : valuesSize k0.lastLevelValueCorrection ≤
      perBlock (T (params.length - 1)) * (messageBytes (T (params.length - 1)) + 6) := by
    have := hv (params.length - 1) (by omega)
    unfold corrections at this
    rw [if_pos (by omega)] at this
    exact this
  have hsum : (k0.correctionWords.map fun w => valuesSize w.valueCorrection).sum ≤
      ((List.range (params.length - 1)).map fun h => perBlock (T h) * (messageBytes (T h) + 6)).sum := by
    have e1 : k0.correctionWords.map (fun w => valuesSize w.valueCorrection) =
        (List.range k0.correctionWords.length).map fun t =>
          valuesSize ((k0.correctionWords[t]?.map (·.valueCorrection)).getD []) := by
      apply List.ext_getElem
      · simp
      · intro i h1 h2
        simp only [List.length_map] at h1
        simp [List.getElem?_eq_getElem h1]
    rw [e1]
    refine Nat.le_trans (sum_map_le (g := fun t => ((List.range (params.length - 1)).map fun h =>
      if depth h = t then perBlock (T h) * (messageBytes (T h) + 6) else 0).sum) ?_) ?_
    · intro t ht
      have ht := List.mem_range.mp ht
      simp only [List.getElem?_eq_getElem ht, Option.map_some, Option.getD_some]
      exact (hword t ht).1
    · rw [sum_places]
      apply sum_map_le
      intro h _
      split <;> omega
  have htotal : levelBytes T params.length =
      ((List.range (params.length - 1)).map fun h => perBlock (T h) * (messageBytes (T h) + 6)).sum +
        perBlock (T (params.length - 1)) * (messageBytes (T (params.length - 1)) + 6) := by
    unfold levelBytes
    obtain ⟨n, hn⟩ : ∃ n, params.length = n + 1 := ⟨params.length - 1, by omega⟩
    rw [hn, List.range_succ, List.map_append, List.sum_append]
    simp
  have hall : ∀ w ∈ k0.correctionWords, valuesSize w.valueCorrection < 2 ^ 34 := by
    intro w hw
    obtain ⟨t, ht, rfl⟩ := List.mem_iff_getElem.mp hw
    exact (hword t ht).2
  have h0 := putKey_length (k := k0) (Or.inl g.key0.2) hall
  have h1 := putKey_length (k := k1) (Or.inr g.key1.2) (by rw [← g.shared.1]; exact hall)
  rw [← g.shared.1, ← g.shared.2] at h1
  rw [g.words] at h0 h1
  unfold serializeKey keyBytes
  omega

/-- Bytes of generated keys. -/
theorem generated_length {fp : FpEnv} {params : List DpfParameters} {T : Nat → Ty} {d : Dpf}
    (hs : Setup fp params T d) {depth : Nat → Nat} (hd : IsDepth params T depth)
    (hsz : levelBytes T params.length < 2 ^ 34) {env : Env} {alpha : U128} {beta : List Value}
    {seed0 seed1 : U128} {k0 k1 : DpfKey}
    (hk : d.generateKeysIncremental env alpha beta seed0 seed1 = ok (k0, k1)) :
    (serializeKey k0).length ≤ keyBytes T params.length (depth (params.length - 1)) ∧
      (serializeKey k1).length ≤ keyBytes T params.length (depth (params.length - 1)) := by
  obtain ⟨ha, b, hb⟩ := hs.of_generateKeys hk
  obtain ⟨k0', k1', h1, g⟩ := C69_generateKeys fp params T d hs env _ hd alpha ha beta b hb seed0 seed1
  rw [hk] at h1
  cases h1
  exact areKeys_length g hs.params_pos hsz

/-- Bytes of generated keys, if the depth is only known to be at most that of the last domain. -/
theorem generated_length_log {fp : FpEnv} {params : List DpfParameters} {T : Nat → Ty} {d : Dpf}
    (hs : Setup fp params T d) (hsz : levelBytes T params.length < 2 ^ 34) {env : Env} {alpha : U128}
    {beta : List Value} {seed0 seed1 : U128} {k0 k1 : DpfKey}
    (hk : d.generateKeysIncremental env alpha beta seed0 seed1 = ok (k0, k1)) :
    (serializeKey k0).length ≤ keyBytes T params.length (lastLogSize params) ∧
      (serializeKey k1).length ≤ keyBytes T params.length (lastLogSize params) := by
  have h1 := generated_length hs hs.isDepth hsz hk
  have hpos := hs.params_pos
  have h2 := hs.wf.tree_le (params.length - 1)
  have h3 : d.logAt (params.length - 1) = lastLogSize params := hs.toCreated.logAt_eq _
  unfold keyBytes at *
  omega

/-- Bytes of the keys of PIR clients. -/
theorem keysFor_length {fp : FpEnv} {l : Nat} {d : Dpf} (h : Dpf.create fp (pirParams l) = ok d) {env : Env} {q : Int}
    {seeds : U128 × U128} {k0 k1 : DpfKey} (hk : DenseClient.keysFor d env q seeds = ok (k0, k1)) :
    (wire (putKey k0)).length ≤ 62 + 34 * l ∧ (wire (putKey k1)).length ≤ 62 + 34 * l := by
  unfold DenseClient.keysFor at hk
  obtain ⟨_, _, hk⟩ := bind_eq_ok.mp hk
  have := generated_length_log (pirDpf_setup h)
    (by show levelBytes (fun _ => pirTy) 1 < _; decide +kernel) hk
  have e : keyBytes (fun _ => pirTy) [pirParams l].length (lastLogSize [pirParams l]) = 62 + 34 * l := by
    have e1 : levelBytes (fun _ => pirTy) 1 = 36 := by decide +kernel
    unfold keyBytes
    rw [show [pirParams l].length = 1 from rfl, e1, show lastLogSize [pirParams l] = l from rfl]
    omega
  rw [e] at this
  exact this

/-- Keys of at most this size. -/
def ShortKeys (size : Nat) (ks : List DpfKey) : Prop := ∀ k ∈ ks, (wire (putKey k)).length ≤ size

theorem plain_short {size : Nat} (hsz : size ≤ 2 ^ 20) {r : PlainRequest} (h : ShortKeys size r.dpfKeys) :
    (wire (putPlain r)).length ≤ r.dpfKeys.length * (6 + size) + 5 := by
  have h5 := wire_length_bound (rs := r.dpfKeys.map fun k => inner 1 (putKey k)) (L := 6 + size) (by
    intro x hx
    obtain ⟨k, hk, rfl⟩ := List.mem_map.mp hx
    exact inner_length_bound (by decide) (h k hk) (by omega))
  rw [List.length_map] at h5
  have h6 : (wire (if r.seedFingerprint = 0 then []
      else [((2, .fixed32 r.seedFingerprint.toNat) : Record)])).length ≤ 5 := by
    split
    · simp [wire]
    · have h1 : (varint (8 * 2 + 5)).length ≤ 1 := varint_length_le (by omega) (by omega)
      rw [wire_single_length, putRecord, List.length_append, littleEndian_length]
      omega
  unfold putPlain
  rw [wire_append, List.length_append]
  omega

theorem helper_short {size : Nat} (hsz : size ≤ 2 ^ 20) {m : HelperRequest} {n : Nat} (hn : n * (6 + size) ≤ 2 ^ 34)
    (hs : m.oneTimePadSeed.length = 16)
    (h : ∀ r, m.plainRequest = some r → ShortKeys size r.dpfKeys ∧ r.dpfKeys.length ≤ n) :
    (wire (putHelper m)).length ≤ n * (6 + size) + 29 := by
  have h9 : (wire (string 2 m.oneTimePadSeed)).length ≤ 18 := by
    have h1' : (varint (8 * 2 + 2)).length ≤ 1 := varint_length_le (by omega) (by omega)
    have h2' : (varint 16).length ≤ 1 := varint_length_le (by omega) (by omega)
    unfold string
    split
    · simp [wire]
    · rw [wire_single_length, putRecord, List.length_append, List.length_append, hs]
      omega
  unfold putHelper
  rw [wire_append, List.length_append]
  cases hm : m.plainRequest with
  | none =>
    show (wire []).length + _ ≤ _
    rw [show (wire []).length = 0 from rfl]
    omega
  | some r =>
    obtain ⟨e1, e2⟩ := h r hm
    have h7 := Nat.le_trans (plain_short hsz e1) (Nat.add_le_add_right (Nat.mul_le_mul_right _ e2) 5)
    have h8 := inner_length_bound (i := 1) (by decide) h7 (by omega)
    show (wire [inner 1 (putPlain r)]).length + _ ≤ _
    rw [wire_single_length]
    omega

/-- What the dense client makes of any numbers, if it succeeds. -/
theorem dense_short {fp : FpEnv} {l : Nat} {c : DenseClient} (h : Dpf.create fp (pirParams l) = ok c.dpf) {env : Env}
    {queries : List Int} {seeds : Nat → U128 × U128} {random : Nat → BitVec 8}
    {r0 : PlainRequest} {m : HelperRequest} {state : ClientState}
    (hr : c.createPlainRequests env queries seeds random = ok (r0, m, state)) :
    ShortKeys (62 + 34 * l) r0.dpfKeys ∧ r0.dpfKeys.length = queries.length ∧ m.oneTimePadSeed.length = 16 ∧
      ∀ r, m.plainRequest = some r → ShortKeys (62 + 34 * l) r.dpfKeys ∧ r.dpfKeys.length ≤ queries.length := by
  unfold DenseClient.createPlainRequests at hr
  obtain ⟨us, hrange, hr⟩ := bind_eq_ok.mp hr
  obtain ⟨keys, hk, hr⟩ := bind_eq_ok.mp hr
  obtain ⟨e1, e2⟩ := mapRes_eq_ok.mp hk
  have hlen : ∀ k ∈ keys, (wire (putKey k.1)).length ≤ 62 + 34 * l ∧ (wire (putKey k.2)).length ≤ 62 + 34 * l := by
    intro k hk'
    obtain ⟨i, hi, rfl⟩ := List.mem_iff_getElem.mp hk'
    exact keysFor_length h (e2 i (by omega) hi)
  rw [List.length_zipIdx] at e1
  cases hr
  refine ⟨?_, by simpa using e1, by simp [Prng.generateSeed, Prng.seedSize], ?_⟩
  · intro k hk'
    obtain ⟨p, hp, rfl⟩ := List.mem_map.mp hk'
    exact (hlen p hp).1
  · intro r hr'
    dsimp only at hr'
    split at hr'
    · cases hr'
    · cases hr'
      refine ⟨?_, Nat.le_of_eq (by simpa using e1)⟩
      intro k hk'
      obtain ⟨p, hp, rfl⟩ := List.mem_map.mp hk'
      exact (hlen p hp).2

/-- The number of bits that a client computed. -/
theorem pirParameters_log {fp : FpEnv} {c : CeilLog2} {n : Int} {d : Dpf}
    (h : Dpf.create fp (pirParameters c n) = ok d) :
    (c n).toNat ≤ 128 ∧ Dpf.create fp (pirParams (c n).toNat) = ok d := by
  have hv : ValidParams [pirParameters c n] := by
    obtain ⟨hpv, _, _⟩ := createIncremental_spec (show Dpf.createIncremental fp [pirParameters c n] = ok d from h)
    exact (create_spec hpv).1
  have h1 := hv.log_range _ List.mem_cons_self
  change 0 ≤ c n ∧ c n ≤ 128 at h1
  refine ⟨by omega, ?_⟩
  have h2 : pirParams (c n).toNat = pirParameters c n := by
    unfold pirParams pirParameters
    congr 1
    omega
  rw [h2]
  exact h

/-- Bytes of a request. -/
theorem request_short {l n growth : Nat} (hl : l ≤ 128) (hb : requestBytes n l growth < 2 ^ 31) {r : PlainRequest}
    {m : HelperRequest} {c : Bytes} (h1 : ShortKeys (62 + 34 * l) r.dpfKeys) (h2 : r.dpfKeys.length = n)
    (h3 : m.oneTimePadSeed.length = 16)
    (h4 : ∀ r, m.plainRequest = some r → ShortKeys (62 + 34 * l) r.dpfKeys ∧ r.dpfKeys.length ≤ n)
    (hc : c.length ≤ (wire (putHelper m)).length + growth) :
    (wire (putRequest (some (.leader (some r) (some c))))).length ≤ requestBytes n l growth := by
  unfold requestBytes at hb
  rw [show 68 + 34 * l = 6 + (62 + 34 * l) by omega] at hb
  have e1 := plain_short (by omega) h1
  rw [h2] at e1
  have e2 := helper_short (by omega) (by omega) h3 h4
  have e3 := encrypted_length (i := 2) (by decide) (Nat.le_trans hc (Nat.add_le_add_right e2 growth)) (by omega)
  have e4 := inner_length_bound (i := 1) (by decide) e1 (by omega)
  have e5 : (wire (putLeader (some r, some c))).length ≤ 2 * (n * (6 + (62 + 34 * l))) + growth + 52 := by
    show (wire [inner 1 (putPlain r), inner 2 (putEncrypted c)]).length ≤ _
    rw [wire_cons, List.length_append, wire_single_length]
    omega
  have e6 := inner_length_bound (i := 2) (by decide) e5 (by omega)
  have e7 := inner_length_bound (i := 1) (rs := [inner 2 (putLeader (some r, some c))]) (by decide)
    (by rw [wire_single_length]; exact e6) (by omega)
  show (wire [inner 1 [inner 2 (putLeader (some r, some c))]]).length ≤ _
  rw [wire_single_length]
  unfold requestBytes
  rw [show 68 + 34 * l = 6 + (62 + 34 * l) by omega]
  omega

/-- Bytes of a leader's response. -/
theorem response_short {plain : PirRequest → Res PirResponse} {lengths : List Nat}
    (hans : ∀ request, AnswersOrRejects request lengths (plain request)) {sender : Sender} {request : PirRequest}
    {response : PirResponse} (h : PirServer.handleLeaderRequest plain sender request = ok response) :
    ∃ r c, request = some (.leader (some r) (some c)) ∧
      (responseBytes r.dpfKeys.length lengths < 2 ^ 31 →
        (wire (putResponse response)).length ≤ responseBytes r.dpfKeys.length lengths) := by
  obtain ⟨plain', encrypted, own, other, e1, e2, e3, e4, e5⟩ := C37_response _ _ _ _ h
  refine ⟨plain', encrypted, e1, ?_⟩
  intro hb
  have hown : totalBytes own.masked = plain'.dpfKeys.length * (lengths.map (· + 6)).sum := by
    rcases hans (some (.plain plain')) with h0 | ⟨r', out, h1, h2, h3, h4⟩
    · rw [h0] at e3; cases e3
    · cases h1
      rw [h3] at e3
      cases e3
      exact totalBytes_flatMap h4
  have hresp : totalBytes response.masked = plain'.dpfKeys.length * (lengths.map (· + 6)).sum := by
    rw [e5, totalBytes_congr (xorResponses_lengths e4)]; exact hown
  unfold responseBytes at hb ⊢
  cases response with
  | none => simp [putResponse, wire]
  | some l =>
    have hresp : totalBytes l = _ := hresp
    have h1 := strings_length (i := 1) (by decide) (l := l) (by omega)
    have h2 := inner_length_bound (i := 1) (rs := putDpfResponse l) (by decide) h1 (by omega)
    show (wire [inner 1 (putDpfResponse l)]).length ≤ _
    rw [wire_single_length]
    omega

theorem setFingerprints_short {size n : Nat} {f : Int} {r : PlainRequest} {m : HelperRequest}
    (h : ∀ r, m.plainRequest = some r → ShortKeys size r.dpfKeys ∧ r.dpfKeys.length ≤ n) :
    ∀ r', (setFingerprints f r m).2.plainRequest = some r' → ShortKeys size r'.dpfKeys ∧ r'.dpfKeys.length ≤ n := by
  intro r' hr'
  cases hm : m.plainRequest with
  | none =>
    simp only [setFingerprints, hm, Option.getD_none, Option.some.injEq] at hr'
    rw [← hr']
    exact ⟨(fun k hk => by cases hk), Nat.zero_le _⟩
  | some q =>
    simp only [setFingerprints, hm, Option.getD_some, Option.some.injEq] at hr'
    rw [← hr']
    exact h q hm

theorem denseClient_parts {fp : FpEnv} {c : CeilLog2} {n : Int} {enc : CryptFn} {info : Bytes} {client : DenseClient}
    (h : DenseClient.create fp c (.dense n) (some enc) info = ok client) :
    client.encrypter = enc ∧ client.contextInfo = info ∧ Dpf.create fp (pirParameters c n) = ok client.dpf := by
  unfold DenseClient.create at h
  obtain ⟨_, _, h⟩ := bind_eq_ok.mp h
  dsimp only at h
  obtain ⟨d, e, h⟩ := bind_eq_ok.mp h
  cases h
  exact ⟨rfl, rfl, e⟩

theorem cuckooClient_parts {fp : FpEnv} {c : CeilLog2} {sha : Sha256} {p : CuckooParams} {enc : CryptFn}
    {info : Bytes} {client : CuckooClient}
    (h : CuckooClient.create fp c sha (.cuckoo p) (some enc) info = ok client) :
    client.encrypter = enc ∧ client.contextInfo = info ∧
      Dpf.create fp (pirParameters c p.numBuckets) = ok client.wrapped.dpf ∧
      client.hashFunctions.length = p.numHashFunctions.toNat := by
  unfold CuckooClient.create at h
  dsimp only at h
  obtain ⟨_, _, h⟩ := bind_eq_ok.mp h
  obtain ⟨_, _, h⟩ := bind_eq_ok.mp h
  obtain ⟨_, _, h⟩ := bind_eq_ok.mp h
  obtain ⟨_, _, h⟩ := bind_eq_ok.mp h
  obtain ⟨fs, e1, h⟩ := bind_eq_ok.mp h
  obtain ⟨w, e2, h⟩ := bind_eq_ok.mp h
  cases h
  refine ⟨rfl, rfl, (denseClient_parts e2).2.2, ?_⟩
  unfold createHashFunctions at e1
  obtain ⟨_, _, e1⟩ := bind_eq_ok.mp e1
  cases e1
  simp

theorem simpleClient_parts {fp : FpEnv} {c : CeilLog2} {sha : Sha256} {p : SimpleParams} {enc : CryptFn}
    {info : Bytes} {client : SimpleClient}
    (h : SimpleClient.create fp c sha (.simple p) (some enc) info = ok client) :
    client.encrypter = enc ∧ client.contextInfo = info ∧
      Dpf.create fp (pirParameters c p.numBuckets) = ok client.wrapped.dpf := by
  unfold SimpleClient.create at h
  dsimp only at h
  obtain ⟨_, _, h⟩ := bind_eq_ok.mp h
  obtain ⟨_, _, h⟩ := bind_eq_ok.mp h
  obtain ⟨_, _, h⟩ := bind_eq_ok.mp h
  obtain ⟨_, _, h⟩ := bind_eq_ok.mp h
  obtain ⟨_, _, h⟩ := bind_eq_ok.mp h
  obtain ⟨w, e2, h⟩ := bind_eq_ok.mp h
  cases h
  exact ⟨rfl, rfl, (denseClient_parts e2).2.2⟩

theorem denseLeader_role {fp : FpEnv} {c : CeilLog2} {config : PirConfig} {db : Option DenseDb}
    {sender : Option Sender} {s : DenseServer} (h : DenseServer.createLeader fp c config db sender = ok s) :
    ∃ f, s.role = .leader f := by
  unfold DenseServer.createLeader at h
  obtain ⟨_, _, h⟩ := bind_eq_ok.mp h
  obtain ⟨role, e, h⟩ := bind_eq_ok.mp h
  cases h
  cases sender with
  | none => cases e
  | some f => cases e; exact ⟨f, rfl⟩

theorem cuckooLeader_role {fp : FpEnv} {c : CeilLog2} {sha : Sha256} {params : CuckooParams} {db : Option CuckooDb}
    {sender : Option Sender} {s : CuckooServer} (h : CuckooServer.createLeader fp c sha params db sender = ok s) :
    ∃ f, s.role = .leader f := by
  unfold CuckooServer.createLeader at h
  obtain ⟨_, _, h⟩ := bind_eq_ok.mp h
  obtain ⟨role, e, h⟩ := bind_eq_ok.mp h
  cases h
  cases sender with
  | none => cases e
  | some f => cases e; exact ⟨f, rfl⟩

theorem simpleLeader_role {fp : FpEnv} {c : CeilLog2} {sha : Sha256} {params : SimpleParams} {db : Option SimpleDb}
    {sender : Option Sender} {s : SimpleServer} (h : SimpleServer.createLeader fp c sha params db sender = ok s) :
    ∃ f, s.role = .leader f := by
  unfold SimpleServer.createLeader at h
  obtain ⟨_, _, h⟩ := bind_eq_ok.mp h
  obtain ⟨role, e, h⟩ := bind_eq_ok.mp h
  cases h
  cases sender with
  | none => cases e
  | some f => cases e; exact ⟨f, rfl⟩

end Verif
