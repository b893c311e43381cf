import Verif.Spec.ServerSafety
import Verif.Lemmas.AnyContext
import Verif.Lemmas.SparsePir
import Verif.Props.Safety
import Verif.Props.InnerProduct
/-! Servers and clients facing arbitrary input. -/
namespace Verif
open Res Spec

/-! ### Selection vectors of arbitrary keys -/

theorem selection_large {fp : FpEnv} {params : List DpfParameters} {T : Nat → Ty} {d : Dpf}
    (hs : Setup fp params T d) (env : Env) {key : DpfKey} {ctx : EvaluationContext}
    (hl : 63 ≤ logSize params 0) (hc : d.createEvaluationContext key = ok ctx) :
    (d.evaluateNext env (T 0).helper [] ctx).1 = err .invalidArgument := by
  have hp : ctx.previousHierarchyLevel = -1 := by
    unfold Dpf.createEvaluationContext at hc
    obtain ⟨_, _, hc⟩ := bind_eq_ok.mp hc
    rw [← ok.inj hc]
  have : previousLogSize params ctx = 0 := by
    unfold previousLogSize
    rw [hp]
    rfl
  unfold Dpf.evaluateNext
  rw [if_pos rfl, C06_rejects fp params d hs.toCreated env (T 0) 0 [] ctx
    (.gap (by rw [this]; simpa using hl))]

theorem selection_any {fp : FpEnv} {l : Nat} {d : Dpf}
    (h : Dpf.create fp (pirParams l) = ok d) (env : Env) (key : DpfKey) :
    (∃ s, DenseServer.selection d env key = ok s ∧ s.length = 2 ^ l) ∨
      DenseServer.selection d env key = err .invalidArgument := by
  have hs := pirDpf_setup h
  have hlog : logSize [pirParams l] 0 = l := rfl
  rw [← selection_register]
  unfold DenseServer.selection
  have hk : OkOrInvalid ((d.registerValueType pirTy.helper).createEvaluationContext key) := by
    unfold Dpf.createEvaluationContext
    exact OkOrInvalid.bind (hs.wf.validateDpfKey_cases key |>.elim (fun e => Or.inl ⟨_, e⟩) Or.inr)
      fun _ _ => Or.inl ⟨_, rfl⟩
  rcases hk with ⟨c, hc⟩ | e
  · rcases Nat.lt_or_ge l 63 with hl | hl
    rotate_left
    · right
      rw [hc, bind_ok, selection_large hs env (by rw [hlog]; exact hl) hc]
      rfl
    rw [hc, bind_ok, C02_next fp _ _ _ hs env key c hc (by rw [hlog]; exact hl)]
    rcases C09_safe fp _ _ _ hs env key 0 (allPoints [pirParams l] 0) with ⟨v, e, hv⟩ | e
    · left
      refine ⟨v, e, hv.trans ?_⟩
      unfold allPoints
      rw [List.length_map, List.length_range, hlog]
    · right; exact e
  · right; rw [e]; rfl

theorem mapRes_okOrInvalid {α β : Type} {f : α → Res β} {l : List α} {P : β → Prop}
    (hf : ∀ a ∈ l, (∃ b, f a = ok b ∧ P b) ∨ f a = err .invalidArgument) :
    (∃ bs, mapRes f l = ok bs ∧ bs.length = l.length ∧ ∀ b ∈ bs, P b) ∨
      mapRes f l = err .invalidArgument := by
  induction l with
  | nil => exact Or.inl ⟨[], rfl, rfl, by simp⟩
  | cons a l ih =>
    rw [mapRes_cons]
    rcases hf a (by simp) with ⟨b, hb, hp⟩ | e
    · rw [hb, bind_ok]
      rcases ih fun a ha => hf a (by simp [ha]) with ⟨bs, h1, h2, h3⟩ | e
      · left
        refine ⟨b :: bs, by rw [h1]; rfl, by simp [h2], ?_⟩
        intro x hx
        rcases List.mem_cons.mp hx with rfl | hx
        · exact hp
        · exact h3 x hx
      · right; rw [e]; rfl
    · right; rw [e]; rfl

/-! ### Inner products with arbitrary selections -/

theorem resultsAfter_lengths (n : Nat) (values : List Bytes) (selections : List (List U128))
    (vs : List Visit) :
    (resultsAfter n values selections vs).map List.length = selections.map fun _ => n := by
  unfold resultsAfter
  rw [List.map_map]
  apply List.ext_getElem (by simp)
  intro i _ _
  simp

/-- The check at inner_product_hwy.cc compares the `int` the first length was converted to with the lengths. -/
theorem innerProduct_large {simd : SimdEnv} {values : List Bytes} {n : Int} {L : Nat}
    {selections : List (List U128)} (hne : selections ≠ []) (hlen : ∀ s ∈ selections, s.length = L)
    (hL : 2 ^ 31 ≤ L) : innerProduct simd values selections n = err .invalidArgument := by
  cases selections with
  | nil => exact absurd rfl hne
  | cons first rest =>
    have hf := hlen first (by simp)
    unfold innerProduct
    dsimp only
    rw [mapRes_cons]
    have hw : ((L : Nat) : Int) ≠ wrapInt32 (L : Int) := by
      unfold wrapInt32
      omega
    have : checkSelection values.length (wrapInt32 first.length) n first = err .invalidArgument := by
      unfold checkSelection
      rw [hf]
      rcases Classical.em (128 * L < values.length) with h | h
      · rw [failIf_true (by omega)]; rfl
      · rw [failIf_false (by omega), bind_ok, failIf_true (by simpa using hw)]; rfl
    rw [this]
    rfl

theorem dense_product {records : List Bytes} {db : DenseDb} (hh : db.Holds records) {simd : SimdEnv}
    (hok : SimdOk simd) {L : Nat} (hL : L ≤ 2 ^ 24 ∨ (Vectorised simd ∧ L < 2 ^ 31) ∨ 2 ^ 31 ≤ L)
    (hn : records.length ≤ L) {selections : List (List U128)} (hne : selections ≠ [])
    (hlen : ∀ s ∈ selections, s.length = L) :
    (∃ out, db.innerProductWith simd selections = ok out ∧
      out.map List.length = selections.map fun _ => maxLength records) ∨
      db.innerProductWith simd selections = err .invalidArgument := by
  unfold DenseDb.innerProductWith
  rw [hh.content, bind_ok, hh.max]
  rcases Nat.eq_zero_or_pos (maxLength records) with h0 | hpos
  · right
    exact C32_rejects _ _ _ _ hne (Or.inr (Or.inr (Or.inl (by rw [h0]; decide))))
  · rw [← or_assoc] at hL
    rcases hL with hL | hL
    rotate_left
    · exact Or.inr (innerProduct_large hne hlen hL)
    left
    exact ⟨_, innerProduct_visits hok hpos hlen hL (by omega) (by omega) fun v hv => length_le_maxLength hv,
      resultsAfter_lengths _ _ _ _⟩

theorem canServe_pow {n : Nat} {simd : SimdEnv} (h : CanServe n simd) {c : CeilLog2} {l : Nat}
    (hc : ExactAt c n) (hl : c n = l) :
    2 ^ l ≤ 2 ^ 24 ∨ (Vectorised simd ∧ 2 ^ l < 2 ^ 31) ∨ 2 ^ 31 ≤ 2 ^ l := by
  obtain ⟨l', h1, h2, h3⟩ := hc
  have : l' = l := by rw [hl] at h1; exact (Int.ofNat.inj h1).symm
  subst this
  have key : ∀ m, n ≤ 2 ^ m → l' ≤ m := by
    intro m hm
    rcases h3 with h3 | h3
    · omega
    · have : l' - 1 < m := (Nat.pow_lt_pow_iff_right (by decide)).mp (Nat.lt_of_lt_of_le h3 hm)
      omega
  rcases h with h | h | h
  · exact Or.inl (Nat.pow_le_pow_right (by decide) (key 24 h))
  · rcases Nat.lt_or_ge (2 ^ l') (2 ^ 31) with h' | h'
    · exact Or.inr (Or.inl ⟨h, h'⟩)
    · exact Or.inr (Or.inr h')
  · refine Or.inr (Or.inr (Nat.pow_le_pow_right (by decide) ?_))
    have : 30 < l' := (Nat.pow_lt_pow_iff_right (by decide)).mp (Nat.lt_of_lt_of_le h h2)
    exact this

/-! ### The generic part of the servers -/

theorem xorString_safe {a b : Bytes} (h : b.length = a.length) : Safe (PirServer.xorString a b) := by
  rw [xorString_ok h]; exact .ok _

theorem combine_safe {a b : List Bytes} (h : b.length = a.length) : Safe (PirServer.combine a b) := by
  unfold PirServer.combine
  refine mapRes_safe fun i hi => ?_
  rw [List.mem_range] at hi
  refine (Dpf.rd_safe (by omega)).bind fun x _ => (Dpf.rd_safe hi).bind fun y _ => ?_
  refine (Safe.failIf _ _).bind fun _ e => ?_
  have := failIf_eq_ok.mp e
  exact xorString_safe (by omega)

theorem handleRequest_safe (codec : HelperCodec) (aes : AesBlock) {plain : PirRequest → Res PirResponse}
    (hp : ∀ r, Safe (plain r)) {role : Role} (hr : RoleReturns role) (request : PirRequest) :
    Safe (PirServer.handleRequest codec aes plain role request) := by
  unfold PirServer.handleRequest
  cases role with
  | plain => exact hp _
  | leader sender =>
    dsimp only
    unfold PirServer.handleLeaderRequest
    split
    · rename_i p e _
      cases p with
      | none => exact .err _
      | some p =>
        cases e with
        | none => exact .err _
        | some e =>
          dsimp only
          split
          · rename_i h2
            exact absurd h2 (hp _).1
          · rename_i h2
            exact absurd h2 (hp _).2
          · refine (hr _).bind fun h _ => (Safe.failIf _ _).bind fun _ _ => (hp _).bind fun r _ =>
              (Safe.failIf _ _).bind fun _ e2 => ?_
            have := failIf_eq_ok.mp e2
            exact (combine_safe (by omega)).bind fun _ _ => .ok _
    · exact .err _
  | helper decrypter info =>
    dsimp only
    unfold PirServer.handleHelperRequest
    split
    · refine (hr _ _).bind fun m _ => ?_
      split
      · exact .err _
      · refine (hp _).bind fun r _ => ?_
        rename_i inner _ _
        by_cases hs : inner.oneTimePadSeed.length = 16
        · obtain ⟨p, h1, h2⟩ := Prng.create_ok (aes := aes) (seed := inner.oneTimePadSeed)
            (nonce := List.replicate 16 0) hs (by simp)
          unfold Prng.create
          rw [show Prng.createWithNonce inner.oneTimePadSeed (List.replicate Prng.seedSize 0) = ok p from h1,
            bind_ok, maskAll_ok h2]
          exact .ok _
        · have : Prng.create inner.oneTimePadSeed = err .invalidArgument := by
            unfold Prng.create Prng.createWithNonce
            rw [failIf_true (by simpa [Prng.seedSize] using hs)]
            rfl
          rw [this]
          exact .err _
    · exact .err _

/-! ### The servers -/

theorem flatMap_congr_length {α β γ : Type} {l : List α} {l' : List β} (h : l.length = l'.length)
    (x : List γ) : (l.flatMap fun _ => x) = l'.flatMap fun _ => x := by
  induction l generalizing l' with
  | nil => cases l' with
    | nil => rfl
    | cons _ _ => simp at h
  | cons a l ih => cases l' with
    | nil => simp at h
    | cons b l' => rw [List.flatMap_cons, List.flatMap_cons, ih (by simpa using h)]

theorem dense_plain {records : List Bytes} {db : DenseDb} (hh : db.Holds records) {fp : FpEnv} {l : Nat}
    {d : Dpf} (hd : Dpf.create fp (pirParams l) = ok d) {simd : SimdEnv} (hok : SimdOk simd)
    (hL : 2 ^ l ≤ 2 ^ 24 ∨ (Vectorised simd ∧ 2 ^ l < 2 ^ 31) ∨ 2 ^ 31 ≤ 2 ^ l) (hn : records.length ≤ 2 ^ l) (role : Role)
    (env : Env) (request : PirRequest) :
    AnswersOrRejects request [maxLength records]
      (DenseServer.handlePlainRequest env simd ⟨d, db, role⟩ request) := by
  unfold DenseServer.handlePlainRequest
  match request with
  | none => exact Or.inl rfl
  | some (.leader _ _) => exact Or.inl rfl
  | some (.encrypted _) => exact Or.inl rfl
  | some .notSet => exact Or.inl rfl
  | some (.plain r) =>
    dsimp only
    by_cases h0 : r.dpfKeys.length = 0
    · left; rw [failIf_true h0]; rfl
    rw [failIf_false h0, bind_ok]
    have hkeys : r.dpfKeys ≠ [] := by rintro e; rw [e] at h0; exact h0 rfl
    rcases mapRes_okOrInvalid (l := r.dpfKeys) (f := DenseServer.selection d env)
      (P := fun s => s.length = 2 ^ l) (fun k _ => selection_any hd env k) with ⟨sel, e1, e2, e3⟩ | e
    rotate_left
    · left; rw [e]; rfl
    rw [e1, bind_ok]
    have hne : sel ≠ [] := by rintro rfl; exact h0 e2.symm
    rcases dense_product hh hok hL hn hne e3 with ⟨out, h1, h2⟩ | e
    · right
      have hout : out ≠ [] := by
        rintro rfl
        exact hne (by simpa using h2.symm)
      refine ⟨r, out, rfl, hkeys, by rw [h1, bind_ok, if_neg hout], h2.trans ?_⟩
      rw [← List.flatMap_singleton' (l := sel.map _), List.flatMap_map]
      exact flatMap_congr_length e2 _
    · left; rw [e]; rfl

theorem AnswersOrRejects_safe {request : PirRequest} {lengths : List Nat} {x : Res PirResponse}
    (h : AnswersOrRejects request lengths x) : Safe x := by
  rcases h with rfl | ⟨_, _, _, _, rfl, _⟩
  · exact .err _
  · exact .ok _

theorem pairUp_lengths {keys values : List Bytes} {a b : Nat} {α : Type} {l : List α}
    (h1 : keys.map List.length = l.map fun _ => a) (h2 : values.map List.length = l.map fun _ => b) :
    ((pairUp keys values).flatMap fun p => [p.1, p.2]).map List.length = l.flatMap fun _ => [a, b] := by
  induction l generalizing keys values with
  | nil =>
    have : keys = [] := by simpa using h1
    subst this
    rfl
  | cons x l ih =>
    cases keys with
    | nil => simp at h1
    | cons k keys =>
      cases values with
      | nil => simp at h2
      | cons v values =>
        simp only [List.map_cons, List.cons.injEq] at h1 h2
        have := ih h1.2 h2.2
        simp only [pairUp, List.flatMap_cons, List.cons_append, List.nil_append, List.map_cons, h1.1, h2.1]
        rw [this]

theorem cuckoo_product {K V : List Bytes} {db : CuckooDb} (hk : db.keys.Holds K) (hv : db.values.Holds V)
    {simd : SimdEnv} (hok : SimdOk simd) {L : Nat} (hL : L ≤ 2 ^ 24 ∨ (Vectorised simd ∧ L < 2 ^ 31) ∨ 2 ^ 31 ≤ L)
    (hK : K.length ≤ L) (hV : V.length ≤ L) {selections : List (List U128)} (hne : selections ≠ [])
    (hlen : ∀ s ∈ selections, s.length = L) :
    (∃ out, db.innerProductWith simd selections = ok out ∧
      (out.flatMap fun p => [p.1, p.2]).map List.length =
        selections.flatMap fun _ => [maxLength K, maxLength V]) ∨
      db.innerProductWith simd selections = err .invalidArgument := by
  unfold CuckooDb.innerProductWith
  rcases dense_product hk hok hL hK hne hlen with ⟨a, h1, h2⟩ | e
  rotate_left
  · right; rw [e]; rfl
  rw [h1, bind_ok]
  rcases dense_product hv hok hL hV hne hlen with ⟨b, h3, h4⟩ | e
  rotate_left
  · right; rw [e]; rfl
  rw [h3, bind_ok]
  left
  have l1 : a.length = selections.length := by simpa using congrArg List.length h2
  have l2 : b.length = selections.length := by simpa using congrArg List.length h4
  refine ⟨pairUp a b, ?_, pairUp_lengths h2 h4⟩
  rw [failIf_false (by omega), bind_ok]

theorem checkFingerprint_cases (r : PlainRequest) (f : Int) : OkOrInvalid (checkFingerprint r f) :=
  OkOrInvalid.failIf _

theorem cuckoo_plain {K V : List Bytes} {db : CuckooDb} (hk : db.keys.Holds K) (hv : db.values.Holds V)
    {fp : FpEnv} {l : Nat} {d : Dpf} (hd : Dpf.create fp (pirParams l) = ok d)
    {simd : SimdEnv} (hok : SimdOk simd) (hL : 2 ^ l ≤ 2 ^ 24 ∨ (Vectorised simd ∧ 2 ^ l < 2 ^ 31) ∨ 2 ^ 31 ≤ 2 ^ l)
    (hK : K.length ≤ 2 ^ l) (hV : V.length ≤ 2 ^ l) (params : PublicParams) (f : Int) (role : Role)
    (env : Env) (request : PirRequest) :
    AnswersOrRejects request [maxLength K, maxLength V]
      (CuckooServer.handlePlainRequest env simd ⟨params, d, db, f, role⟩ request) := by
  unfold CuckooServer.handlePlainRequest
  match request with
  | none => exact Or.inl rfl
  | some (.leader _ _) => exact Or.inl rfl
  | some (.encrypted _) => exact Or.inl rfl
  | some .notSet => exact Or.inl rfl
  | some (.plain r) =>
    dsimp only
    by_cases h0 : r.dpfKeys.length = 0
    · left; rw [failIf_true h0]; rfl
    rw [failIf_false h0, bind_ok]
    have hkeys : r.dpfKeys ≠ [] := by rintro e; rw [e] at h0; exact h0 rfl
    rcases checkFingerprint_cases r f with ⟨u, e⟩ | e
    rotate_left
    · left; rw [e]; rfl
    rw [e, bind_ok]
    rcases mapRes_okOrInvalid (l := r.dpfKeys) (f := DenseServer.selection d env)
      (P := fun s => s.length = 2 ^ l) (fun k _ => selection_any hd env k) with ⟨sel, e1, e2, e3⟩ | e
    rotate_left
    · left; rw [e]; rfl
    rw [e1, bind_ok]
    have hne : sel ≠ [] := by rintro rfl; exact h0 e2.symm
    rcases cuckoo_product hk hv hok hL hK hV hne e3 with ⟨out, h1, h2⟩ | e
    · right
      exact ⟨r, _, rfl, hkeys, by rw [h1, bind_ok], h2.trans (flatMap_congr_length e2 _)⟩
    · left; rw [e]; rfl

theorem simple_plain {buckets : List Bytes} {db : SimpleDb} (hh : db.dense.Holds buckets)
    {fp : FpEnv} {l : Nat} {d : Dpf} (hd : Dpf.create fp (pirParams l) = ok d)
    {simd : SimdEnv} (hok : SimdOk simd) (hL : 2 ^ l ≤ 2 ^ 24 ∨ (Vectorised simd ∧ 2 ^ l < 2 ^ 31) ∨ 2 ^ 31 ≤ 2 ^ l)
    (hn : buckets.length ≤ 2 ^ l) (params : PublicParams) (f : Int) (role : Role)
    (env : Env) (request : PirRequest) :
    AnswersOrRejects request [maxLength buckets]
      (SimpleServer.handlePlainRequest env simd ⟨params, d, db, f, role⟩ request) := by
  unfold SimpleServer.handlePlainRequest
  match request with
  | none => exact Or.inl rfl
  | some (.leader _ _) => exact Or.inl rfl
  | some (.encrypted _) => exact Or.inl rfl
  | some .notSet => exact Or.inl rfl
  | some (.plain r) =>
    dsimp only
    by_cases h0 : r.dpfKeys.length = 0
    · left; rw [failIf_true h0]; rfl
    rw [failIf_false h0, bind_ok]
    have hkeys : r.dpfKeys ≠ [] := by rintro e; rw [e] at h0; exact h0 rfl
    rcases checkFingerprint_cases r f with ⟨u, e⟩ | e
    rotate_left
    · left; rw [e]; rfl
    rw [e, bind_ok]
    rcases mapRes_okOrInvalid (l := r.dpfKeys) (f := DenseServer.selection d env)
      (P := fun s => s.length = 2 ^ l) (fun k _ => selection_any hd env k) with ⟨sel, e1, e2, e3⟩ | e
    rotate_left
    · left; rw [e]; rfl
    rw [e1, bind_ok]
    have hne : sel ≠ [] := by rintro rfl; exact h0 e2.symm
    unfold SimpleDb.innerProductWith
    rcases dense_product hh hok hL hn hne e3 with ⟨out, h1, h2⟩ | e
    · right
      refine ⟨r, out, rfl, hkeys, by rw [h1, bind_ok], h2.trans ?_⟩
      rw [← List.flatMap_singleton' (l := sel.map _), List.flatMap_map]
      exact flatMap_congr_length e2 _
    · left; rw [e]; rfl

/-! ### What creation says about the server -/

theorem denseServer_inv {fp : FpEnv} {c : CeilLog2} {config : PirConfig} {db : DenseDb}
    {server : DenseServer} (h : DenseServerFor fp c config (some db) server) :
    ∃ (n : Nat) (d : Dpf) (role : Role), config = .dense n ∧ 0 < n ∧ db.size = n ∧
      Dpf.create fp (pirParameters c n) = ok d ∧ server = ⟨d, db, role⟩ := by
  have plain : ∀ s, DenseServer.createPlain fp c config (some db) = ok s →
      ∃ (n : Nat) (d : Dpf), config = .dense n ∧ 0 < n ∧ db.size = n ∧
      Dpf.create fp (pirParameters c n) = ok d ∧ s = ⟨d, db, .plain⟩ := by
    intro s hs
    unfold DenseServer.createPlain at hs
    cases config with
    | dense n =>
      dsimp only at hs
      obtain ⟨_, e1, hs⟩ := bind_eq_ok.mp hs
      obtain ⟨_, e2, hs⟩ := bind_eq_ok.mp hs
      obtain ⟨d, e3, hs⟩ := bind_eq_ok.mp hs
      have h1 := failIf_eq_ok.mp e1
      have h2 := failIf_eq_ok.mp e2
      have hn : n = (db.size : Int) := by omega
      rw [hn] at e3
      exact ⟨_, d, by rw [hn], by omega, rfl, e3, (ok.inj hs).symm⟩
    | _ => cases hs
  rcases h with h | ⟨x, h⟩ | ⟨x, h⟩
  · obtain ⟨n, d, h1, h2, h3, h4, rfl⟩ := plain _ h
    exact ⟨n, d, _, h1, h2, h3, h4, rfl⟩
  · unfold DenseServer.createLeader at h
    obtain ⟨s, e1, h⟩ := bind_eq_ok.mp h
    obtain ⟨role, _, h⟩ := bind_eq_ok.mp h
    obtain ⟨n, d, h1, h2, h3, h4, rfl⟩ := plain _ e1
    exact ⟨n, d, _, h1, h2, h3, h4, (ok.inj h).symm⟩
  · unfold DenseServer.createHelper at h
    obtain ⟨s, e1, h⟩ := bind_eq_ok.mp h
    obtain ⟨role, _, h⟩ := bind_eq_ok.mp h
    obtain ⟨n, d, h1, h2, h3, h4, rfl⟩ := plain _ e1
    exact ⟨n, d, _, h1, h2, h3, h4, (ok.inj h).symm⟩

theorem cuckooServer_inv {fp : FpEnv} {c : CeilLog2} {sha : Sha256} {params : CuckooParams} {db : CuckooDb}
    {server : CuckooServer} (h : CuckooServerFor fp c sha params (some db) server) :
    ∃ (d : Dpf) (f : Int) (role : Role), (db.numSelectionBits : Int) = params.numBuckets ∧
      Dpf.create fp (pirParameters c params.numBuckets) = ok d ∧
      server = ⟨.cuckoo params, d, db, f, role⟩ := by
  have plain : ∀ s, CuckooServer.createPlain fp c sha params (some db) = ok s →
      ∃ (d : Dpf) (f : Int), (db.numSelectionBits : Int) = params.numBuckets ∧
      Dpf.create fp (pirParameters c params.numBuckets) = ok d ∧ s = ⟨.cuckoo params, d, db, f, .plain⟩ := by
    intro s hs
    unfold CuckooServer.createPlain at hs
    obtain ⟨_, _, hs⟩ := bind_eq_ok.mp hs
    obtain ⟨_, _, hs⟩ := bind_eq_ok.mp hs
    obtain ⟨_, _, hs⟩ := bind_eq_ok.mp hs
    dsimp only at hs
    obtain ⟨_, e2, hs⟩ := bind_eq_ok.mp hs
    obtain ⟨d, e3, hs⟩ := bind_eq_ok.mp hs
    obtain ⟨f, _, hs⟩ := bind_eq_ok.mp hs
    have h2 := failIf_eq_ok.mp e2
    exact ⟨d, f, by omega, e3, (ok.inj hs).symm⟩
  rcases h with h | ⟨x, h⟩ | ⟨x, h⟩
  · obtain ⟨d, f, h1, h2, rfl⟩ := plain _ h
    exact ⟨d, f, _, h1, h2, rfl⟩
  · unfold CuckooServer.createLeader at h
    obtain ⟨s, e1, h⟩ := bind_eq_ok.mp h
    obtain ⟨role, _, h⟩ := bind_eq_ok.mp h
    obtain ⟨d, f, h1, h2, rfl⟩ := plain _ e1
    exact ⟨d, f, _, h1, h2, (ok.inj h).symm⟩
  · unfold CuckooServer.createHelper at h
    obtain ⟨s, e1, h⟩ := bind_eq_ok.mp h
    obtain ⟨role, _, h⟩ := bind_eq_ok.mp h
    obtain ⟨d, f, h1, h2, rfl⟩ := plain _ e1
    exact ⟨d, f, _, h1, h2, (ok.inj h).symm⟩

theorem simpleServer_inv {fp : FpEnv} {c : CeilLog2} {sha : Sha256} {params : SimpleParams} {db : SimpleDb}
    {server : SimpleServer} (h : SimpleServerFor fp c sha params (some db) server) :
    ∃ (d : Dpf) (f : Int) (role : Role), (db.numSelectionBits : Int) = params.numBuckets ∧
      Dpf.create fp (pirParameters c params.numBuckets) = ok d ∧
      server = ⟨.simple params, d, db, f, role⟩ := by
  have plain : ∀ s, SimpleServer.createPlain fp c sha params (some db) = ok s →
      ∃ (d : Dpf) (f : Int), (db.numSelectionBits : Int) = params.numBuckets ∧
      Dpf.create fp (pirParameters c params.numBuckets) = ok d ∧ s = ⟨.simple params, d, db, f, .plain⟩ := by
    intro s hs
    unfold SimpleServer.createPlain at hs
    obtain ⟨_, _, hs⟩ := bind_eq_ok.mp hs
    obtain ⟨_, _, hs⟩ := bind_eq_ok.mp hs
    dsimp only at hs
    obtain ⟨_, e2, hs⟩ := bind_eq_ok.mp hs
    obtain ⟨d, e3, hs⟩ := bind_eq_ok.mp hs
    obtain ⟨f, _, hs⟩ := bind_eq_ok.mp hs
    have h2 := failIf_eq_ok.mp e2
    exact ⟨d, f, by omega, e3, (ok.inj hs).symm⟩
  rcases h with h | ⟨x, h⟩ | ⟨x, h⟩
  · obtain ⟨d, f, h1, h2, rfl⟩ := plain _ h
    exact ⟨d, f, _, h1, h2, rfl⟩
  · unfold SimpleServer.createLeader at h
    obtain ⟨s, e1, h⟩ := bind_eq_ok.mp h
    obtain ⟨role, _, h⟩ := bind_eq_ok.mp h
    obtain ⟨d, f, h1, h2, rfl⟩ := plain _ e1
    exact ⟨d, f, _, h1, h2, (ok.inj h).symm⟩
  · unfold SimpleServer.createHelper at h
    obtain ⟨s, e1, h⟩ := bind_eq_ok.mp h
    obtain ⟨role, _, h⟩ := bind_eq_ok.mp h
    obtain ⟨d, f, h1, h2, rfl⟩ := plain _ e1
    exact ⟨d, f, _, h1, h2, (ok.inj h).symm⟩

theorem pirDpf_inv (fp : FpEnv) {c : CeilLog2} {n : Nat} {d : Dpf} {simd : SimdEnv} (hc : ExactAt c n)
    (h : CanServe n simd) (hd : Dpf.create fp (pirParameters c n) = ok d) :
    ∃ l, n ≤ 2 ^ l ∧ Dpf.create fp (pirParams l) = ok d ∧
      (2 ^ l ≤ 2 ^ 24 ∨ (Vectorised simd ∧ 2 ^ l < 2 ^ 31) ∨ 2 ^ 31 ≤ 2 ^ l) := by
  have hc' := hc
  obtain ⟨l, e1, e2, _⟩ := hc'
  refine ⟨l, e2, ?_, canServe_pow h hc e1⟩
  unfold pirParameters at hd
  rw [e1] at hd
  exact hd

/-! ### Creation -/

theorem pirDpf_safe (fp : FpEnv) (c : CeilLog2) (n : Int) : Safe (Dpf.create fp (pirParameters c n)) := by
  unfold Dpf.create
  refine C49_create fp _ fun p hp t ht => ?_
  simp only [List.mem_singleton] at hp
  subst hp
  simp only [pirParameters, Option.some.injEq] at ht
  subst ht
  exact ⟨trivial, (by decide : 1 < 2 ^ 23)⟩

theorem makeLeader_safe (x : Option Sender) : Safe (PirServer.makeLeader x) := by
  cases x
  · exact .err _
  · exact .ok _

theorem makeHelper_safe (x : Option CryptFn) (info : Bytes) : Safe (PirServer.makeHelper x info) := by
  cases x
  · exact .err _
  · exact .ok _

theorem densePlain_safe (fp : FpEnv) (c : CeilLog2) (config : PirConfig) (db : Option DenseDb) :
    Safe (DenseServer.createPlain fp c config db) := by
  unfold DenseServer.createPlain
  cases config with
  | dense n =>
    cases db with
    | none => exact .err _
    | some db =>
      exact (Safe.failIf _ _).bind fun _ _ => (Safe.failIf _ _).bind fun _ _ =>
        (pirDpf_safe fp c n).bind fun _ _ => .ok _
  | _ => exact .err _

theorem fingerprint_safe (sha : Sha256) (config : HashFamilyConfig) : Safe (seedFingerprint sha config) := by
  obtain ⟨f, h⟩ := fingerprint_ok sha config
  rw [h]; exact .ok _

theorem cuckooPlain_safe (fp : FpEnv) (c : CeilLog2) (sha : Sha256) (params : CuckooParams)
    (db : Option CuckooDb) : Safe (CuckooServer.createPlain fp c sha params db) := by
  unfold CuckooServer.createPlain
  refine (Safe.failIf _ _).bind fun _ _ => (Safe.failIf _ _).bind fun _ _ => (Safe.failIf _ _).bind fun _ _ => ?_
  cases db with
  | none => exact .err _
  | some db =>
    exact (Safe.failIf _ _).bind fun _ _ => (pirDpf_safe fp c _).bind fun _ _ =>
      (fingerprint_safe sha _).bind fun _ _ => .ok _

theorem simplePlain_safe (fp : FpEnv) (c : CeilLog2) (sha : Sha256) (params : SimpleParams)
    (db : Option SimpleDb) : Safe (SimpleServer.createPlain fp c sha params db) := by
  unfold SimpleServer.createPlain
  refine (Safe.failIf _ _).bind fun _ _ => (Safe.failIf _ _).bind fun _ _ => ?_
  cases db with
  | none => exact .err _
  | some db =>
    exact (Safe.failIf _ _).bind fun _ _ => (pirDpf_safe fp c _).bind fun _ _ =>
      (fingerprint_safe sha _).bind fun _ _ => .ok _

/-! ### Clients -/

theorem denseClient_safe (fp : FpEnv) (c : CeilLog2) (config : PirConfig) (enc : Option CryptFn)
    (info : Bytes) : Safe (DenseClient.create fp c config enc info) := by
  unfold DenseClient.create
  cases config with
  | dense n =>
    refine (Safe.failIf _ _).bind fun _ _ => ?_
    cases enc with
    | none => exact .err _
    | some enc => exact (pirDpf_safe fp c n).bind fun _ _ => .ok _
  | _ => exact .err _

theorem denseClient_inv {fp : FpEnv} {c : CeilLog2} {config : PirConfig} {enc : CryptFn}
    {info : Bytes} {client : DenseClient} (h : DenseClient.create fp c config (some enc) info = ok client) :
    client.encrypter = enc ∧ ∃ n, Dpf.create fp (pirParameters c n) = ok client.dpf := by
  unfold DenseClient.create at h
  cases config with
  | dense n =>
    obtain ⟨_, _, h⟩ := bind_eq_ok.mp h
    dsimp only at h
    obtain ⟨d, e, h⟩ := bind_eq_ok.mp h
    simp only [ok.injEq] at h
    subst h
    exact ⟨rfl, n, e⟩
  | _ => cases h

theorem keysFor_safe {fp : FpEnv} {c : CeilLog2} {n : Int} {d : Dpf}
    (h : Dpf.create fp (pirParameters c n) = ok d) (env : Env) {q : Int} (hq : 0 ≤ q)
    (seeds : U128 × U128) : Safe (DenseClient.keysFor d env q seeds) := by
  have hs : Setup fp [pirParameters c n] (fun _ => pirTy) (d.registerValueType pirTy.helper) :=
    Setup.of_flat (Ts := [pirTy]) h
      (by
        intro h p hp
        match h, hp with
        | 0, hp => simp at hp; rw [← hp]; rfl)
      (fun _ _ => Or.inl (by simp)) (fun _ _ => Or.inl rfl)
  unfold DenseClient.keysFor
  have : Safe (shl128 1 (q.tmod 128)) := by
    unfold shl128
    rw [if_neg (by
      have h1 := Int.tmod_nonneg 128 hq
      have h2 := Int.tmod_lt_of_pos q (b := 128) (by decide)
      omega)]
    exact .ok _
  exact this.bind fun _ _ => C49_keygen fp _ _ _ hs env _ _ _ _

theorem denseRequests_safe {fp : FpEnv} {c : CeilLog2} {n : Int} {client : DenseClient}
    (h : Dpf.create fp (pirParameters c n) = ok client.dpf) (env : Env) (queries : List Int)
    (seeds : Nat → U128 × U128) (random : Nat → BitVec 8) :
    Safe (client.createPlainRequests env queries seeds random) := by
  unfold DenseClient.createPlainRequests
  refine (mapRes_safe fun q _ => (Safe.failIf _ _).bind fun _ _ => Safe.failIf _ _).bind fun us hu => ?_
  have hpos : ∀ q ∈ queries, 0 ≤ q := by
    intro q hq
    obtain ⟨_, e⟩ := mapRes_exists_of_ok hu hq
    obtain ⟨_, e, _⟩ := bind_eq_ok.mp e
    have := failIf_eq_ok.mp e
    omega
  refine (mapRes_safe fun x hx => ?_).bind fun _ _ => .ok _
  exact keysFor_safe h env (hpos x.1 (by
    have := List.mem_zipIdx' (x := x.1) (i := x.2) hx
    rw [this.2]
    exact List.getElem_mem _)) _

theorem createRequest_safe (codec : HelperCodec) {enc : CryptFn} {info : Bytes}
    (henc : ∀ m i, Safe (enc m i)) {x : Res (PlainRequest × HelperRequest × ClientState)} (hx : Safe x) :
    Safe (PirClient.createRequest codec enc info x) := by
  unfold PirClient.createRequest PirClient.plainRequestsToLeaderRequest
  exact hx.bind fun _ _ => ((henc _ _).bind fun _ _ => .ok _).bind fun _ _ => .ok _

theorem slice_lt {l : Bytes} {i n : Nat} (h : i + n ≤ l.length) : ∃ x, slice l i n = ok x := by
  unfold slice
  rw [if_pos h]
  exact ⟨_, rfl⟩

theorem sha_safe (sha : Sha256) (seed input : Bytes) {b : Int} (hb : b ≠ 0) :
    Safe (sha.hashFunction seed input b) := by
  have hm : ∀ x, Safe (Sha256.modInt x b) := by
    intro x
    unfold Sha256.modInt
    rw [if_neg hb]
    exact .ok _
  unfold Sha256.hashFunction
  dsimp only
  have hsz := sha.size (Sha256.updateWithData Sha256.chunkSize input
    (Sha256.updateWithData Sha256.chunkSize seed []))
  obtain ⟨hi, e1⟩ := slice_lt (i := 16) (n := 16) (Nat.le_of_eq hsz.symm)
  obtain ⟨lo, e2⟩ := slice_lt (i := 0) (n := 16) (l := sha.digest (Sha256.updateWithData Sha256.chunkSize
    input (Sha256.updateWithData Sha256.chunkSize seed []))) (by omega)
  rw [e1, bind_ok, e2, bind_ok]
  exact (hm _).bind fun _ _ => (hm _).bind fun _ _ => (hm _).bind fun _ _ => .ok _

theorem sha_zero (sha : Sha256) (seed input : Bytes) : sha.hashFunction seed input 0 = ub := by
  unfold Sha256.hashFunction
  dsimp only
  have hsz := sha.size (Sha256.updateWithData Sha256.chunkSize input
    (Sha256.updateWithData Sha256.chunkSize seed []))
  obtain ⟨hi, e1⟩ := slice_lt (i := 16) (n := 16) (Nat.le_of_eq hsz.symm)
  obtain ⟨lo, e2⟩ := slice_lt (i := 0) (n := 16) (l := sha.digest (Sha256.updateWithData Sha256.chunkSize
    input (Sha256.updateWithData Sha256.chunkSize seed []))) (by omega)
  rw [e1, bind_ok, e2, bind_ok]
  rfl

theorem family_safe (sha : Sha256) (config : HashFamilyConfig) :
    Safe (createHashFamilyFromConfig sha config) := by
  unfold createHashFamilyFromConfig
  refine (Safe.failIf _ _).bind fun _ _ => ?_
  split
  · exact .ok _
  · exact .err _

theorem family_sha {sha : Sha256} {config : HashFamilyConfig} {family : HashFamily}
    (h : createHashFamilyFromConfig sha config = ok family) :
    ∀ s, ∃ s', family s = sha.hashFunction s' := by
  unfold createHashFamilyFromConfig at h
  obtain ⟨_, _, h⟩ := bind_eq_ok.mp h
  split at h
  · intro s
    rw [← ok.inj h]
    exact ⟨_, rfl⟩
  · cases h

theorem functions_sha {sha : Sha256} {config : HashFamilyConfig} {family : HashFamily}
    (h : createHashFamilyFromConfig sha config = ok family) {n : Int} {fs : List HashFunction}
    (hf : createHashFunctions family n = ok fs) :
    fs.length = n.toNat ∧ ∀ f ∈ fs, ∃ s, f = sha.hashFunction s := by
  unfold createHashFunctions at hf
  obtain ⟨_, _, hf⟩ := bind_eq_ok.mp hf
  rw [← ok.inj hf]
  refine ⟨by simp, ?_⟩
  intro f hf
  obtain ⟨i, _, rfl⟩ := List.mem_map.mp hf
  exact family_sha h _

theorem functions_safe (family : HashFamily) (n : Int) : Safe (createHashFunctions family n) := by
  unfold createHashFunctions
  exact (Safe.failIf _ _).bind fun _ _ => .ok _

theorem cuckooClient_inv {fp : FpEnv} {c : CeilLog2} {sha : Sha256} {params : PublicParams}
    {enc : CryptFn} {info : Bytes} {client : CuckooClient}
    (h : CuckooClient.create fp c sha params (some enc) info = ok client) :
    ∃ p, params = .cuckoo p ∧ client.encrypter = enc ∧ client.numBuckets = wrapInt32 p.numBuckets ∧
      0 < client.hashFunctions.length ∧ (∀ f ∈ client.hashFunctions, ∃ s, f = sha.hashFunction s) ∧
      ∃ n, Dpf.create fp (pirParameters c n) = ok client.wrapped.dpf := by
  unfold CuckooClient.create at h
  dsimp only at h
  cases params with
  | cuckoo p =>
    dsimp only at h
    obtain ⟨_, _, h⟩ := bind_eq_ok.mp h
    obtain ⟨_, e0, h⟩ := bind_eq_ok.mp h
    obtain ⟨family, e1, h⟩ := bind_eq_ok.mp h
    obtain ⟨_, _, h⟩ := bind_eq_ok.mp h
    obtain ⟨fs, e2, h⟩ := bind_eq_ok.mp h
    obtain ⟨w, e3, h⟩ := bind_eq_ok.mp h
    have h0 := failIf_eq_ok.mp e0
    obtain ⟨f1, f2⟩ := functions_sha e1 e2
    rw [← ok.inj h]
    refine ⟨p, rfl, rfl, rfl, ?_, f2, (denseClient_inv e3).2⟩
    show 0 < fs.length
    omega
  | _ => cases h

theorem simpleClient_inv {fp : FpEnv} {c : CeilLog2} {sha : Sha256} {params : PublicParams}
    {enc : CryptFn} {info : Bytes} {client : SimpleClient}
    (h : SimpleClient.create fp c sha params (some enc) info = ok client) :
    ∃ p, params = .simple p ∧ client.encrypter = enc ∧ client.numBuckets = wrapInt32 p.numBuckets ∧
      (∃ s, client.hashFunction = sha.hashFunction s) ∧
      ∃ n, Dpf.create fp (pirParameters c n) = ok client.wrapped.dpf := by
  unfold SimpleClient.create at h
  dsimp only at h
  cases params with
  | simple p =>
    dsimp only at h
    obtain ⟨_, _, h⟩ := bind_eq_ok.mp h
    obtain ⟨family, e1, h⟩ := bind_eq_ok.mp h
    obtain ⟨_, _, h⟩ := bind_eq_ok.mp h
    obtain ⟨fs, e2, h⟩ := bind_eq_ok.mp h
    obtain ⟨f, e4, h⟩ := bind_eq_ok.mp h
    obtain ⟨w, e3, h⟩ := bind_eq_ok.mp h
    obtain ⟨f1, f2⟩ := functions_sha e1 e2
    rw [← ok.inj h]
    exact ⟨p, rfl, rfl, rfl, f2 f (List.mem_of_getElem? (rd_eq_ok.mp e4)), (denseClient_inv e3).2⟩
  | _ => cases h

theorem wrapInt32_zero {n : Int} : wrapInt32 n = 0 ↔ n % 2 ^ 32 = 0 := by
  unfold wrapInt32
  omega

/-! ### Scalar machines -/

/-- The scalar inner product with more than 2^24 blocks. -/
theorem innerProduct_overflow {env : SimdEnv} (hs : env.scalar = true) {values : List Bytes}
    {selections : List (List U128)} (hne : selections ≠ []) {n L : Nat} (hpos : 0 < n)
    (hlen : ∀ sel ∈ selections, sel.length = L) (hL : 2 ^ 24 < L) (hL' : L < 2 ^ 31)
    (hsize : values.length ≤ 128 * L) (h31 : values.length < 2 ^ 31) (hn : ∀ v ∈ values, v.length ≤ n) :
    innerProduct env values selections n = ub := by
  cases selections with
  | nil => exact absurd rfl hne
  | cons first rest =>
    have hf := hlen first (by simp)
    have h1 : mapRes (checkSelection values.length (wrapInt32 first.length) n) (first :: rest) =
        ok ((first :: rest).map fun _ => ()) := by
      apply mapRes_eq_ok_map
      intro sel hs
      have := hlen sel hs
      unfold checkSelection
      rw [hf, wrapInt32_of_lt hL', failIf_false (by omega), bind_ok, failIf_false (by omega), bind_ok,
        failIf_false (by omega)]
    have h2 := checkValues_ok hn h31
    unfold innerProduct
    dsimp only
    rw [h1, bind_ok, h2, bind_ok, Int.toNat_natCast]
    unfold innerProductHwy
    rw [if_pos (Or.inl hs)]
    unfold innerProductNoHwy
    rw [rd_eq_ok.mpr (List.getElem?_cons_zero), bind_ok, hf,
      show L = (2 ^ 24 + 1) + (L - (2 ^ 24 + 1)) by omega, List.range_add, foldRes_append,
      List.range_succ (n := 2 ^ 24), foldRes_append, resultsAfter_nil n values]
    have := foldRes_range_eq (n := 2 ^ 24) (f := fun results i =>
        if i * 128 ≥ 2 ^ 31 then ub
        else loopBits values.length ((i * 128 : Nat) : Int) (noHwyRecord env values (first :: rest) i)
          (List.range 128) results) (fun i => resultsAfter n values (first :: rest)
      (visits values.length (fun i => ((i * 128 : Nat) : Int)) i)) (fun i hi => by
        rw [if_neg (by omega), visits_succ]
        refine loopBits_ok (fun vs j idx hj hidx => noHwyRecord_ok hj ?_ hidx hn) _
          (fun j hj => List.mem_range.mp hj) _
        intro s hs
        rw [hlen s hs]; omega)
    rw [show visits values.length (fun i => ((i * 128 : Nat) : Int)) 0 = [] from rfl] at this
    rw [this, bind_ok, foldRes_cons, if_pos (by omega), bind_ub, bind_ub]

end Verif
