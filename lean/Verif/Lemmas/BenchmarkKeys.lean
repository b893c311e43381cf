import Verif.Lemmas.BenchmarkPrefixes
import Verif.Props.Mic
import Verif.Props.Accept
/-!
# Lemmas for C82: keys
-/
namespace Verif
open Res Spec Benchmarks SyntheticData

/-! ### Registered types do not matter for evaluation -/

theorem evaluateAt_registry {α : Type} {d d' : Dpf} (h1 : d'.pv = d.pv) (h2 : d'.blocksNeeded = d.blocksNeeded) (env : Env)
    (H : Helper α) (key : DpfKey) (h : Int) (points : List U128) :
    d'.evaluateAt env H key h points = d.evaluateAt env H key h points := by
  obtain ⟨pv, b, r⟩ := d
  obtain ⟨pv', b', r'⟩ := d'
  dsimp only at h1 h2
  subst h1 h2
  rfl

theorem SharesPoint.registry {params : List DpfParameters} {T : Nat → Ty} {d d' : Dpf} {env : Env} {alpha : U128}
    {b : (h : Nat) → (T h).den} {k0 k1 : DpfKey} (hs : SharesPoint params T d env alpha b k0 k1)
    (h1 : d'.pv = d.pv) (h2 : d'.blocksNeeded = d.blocksNeeded) : SharesPoint params T d' env alpha b k0 k1 := by
  intro h hh points hp
  obtain ⟨v0, v1, a1, a2, a3⟩ := hs h hh points hp
  exact ⟨v0, v1, by rw [evaluateAt_registry h1 h2]; exact a1, by rw [evaluateAt_registry h1 h2]; exact a2, a3⟩

theorem registerAll_append (d : Dpf) (Ts Ts' : List Ty) : (d.registerAll Ts).registerAll Ts' = d.registerAll (Ts ++ Ts') := by
  simp [Dpf.registerAll]

theorem SharesPoint.registerAll {params : List DpfParameters} {T : Nat → Ty} {d : Dpf} {env : Env} {alpha : U128}
    {b : (h : Nat) → (T h).den} {k0 k1 : DpfKey} {Ts : List Ty} (hs : SharesPoint params T (d.registerAll Ts) env alpha b k0 k1)
    (Ts' : List Ty) : SharesPoint params T (d.registerAll Ts') env alpha b k0 k1 :=
  SharesPoint.registry hs (by rw [(d.registerAll_pv Ts').1, (d.registerAll_pv Ts).1])
    (by rw [(d.registerAll_pv Ts').2, (d.registerAll_pv Ts).2])

/-! ### Keys for zero -/

/-- Parameters for one level. -/
def oneLevel (log : Nat) (t : Ty) : List DpfParameters := [⟨(log : Int), some t.helper.toValueType, .val 0⟩]

theorem oneLevel_last (log : Nat) (t : Ty) : lastLogSize (oneLevel log t) = log := by
  simp [lastLogSize, logSize, oneLevel]

theorem zeroKeys_ok {fp : FpEnv} {log : Nat} {t : Ty} (hflat : t.flat = true ∨ t.noMod = true) {d0 : Dpf}
    (hd0 : Dpf.createIncremental fp (oneLevel log t) = ok d0) (Ts : List Ty) (env : Env) {alpha : U128}
    (halpha : alpha.toNat < 2 ^ log) (seed0 seed1 : U128) :
    ∃ k0 k1 Ts' ctx, generateKeysZero (d0.registerAll Ts) env t alpha seed0 seed1 = (ok (k0, k1), d0.registerAll Ts') ∧
      Setup fp (oneLevel log t) (fun _ => t) (d0.registerAll Ts') ∧
      SharesPoint (oneLevel log t) (fun _ => t) (d0.registerAll Ts') env alpha (fun _ => t.helper.zero) k0 k1 ∧
      (d0.registerAll Ts').createEvaluationContext k0 = ok ctx := by
  have key : ∃ (beta : Value) (Ts' : List Ty), generateKeysZero (d0.registerAll Ts) env t alpha seed0 seed1 =
      ((d0.registerAll Ts').generateKeysIncremental env alpha [beta] seed0 seed1, d0.registerAll Ts') ∧
      BetasRepresent (oneLevel log t) (fun _ => t) [beta] (fun _ => t.helper.zero) ∧ (t ∈ Ts' ∨ ∃ w, t = .uint w) := by
    have typed : ∃ (beta : Value) (Ts' : List Ty), (d0.registerAll Ts).generateKeysTyped env alpha ⟨t, t.helper.zero⟩ seed0 seed1 =
        ((d0.registerAll Ts').generateKeysIncremental env alpha [beta] seed0 seed1, d0.registerAll Ts') ∧
        BetasRepresent (oneLevel log t) (fun _ => t) [beta] (fun _ => t.helper.zero) ∧ (t ∈ Ts' ∨ ∃ w, t = .uint w) := by
      refine ⟨t.helper.toValue t.helper.zero, Ts ++ [t], ?_, ⟨rfl, ?_⟩, Or.inl (by simp)⟩
      · rw [← registerAll_append]; rfl
      · intro h v hv
        match h with
        | 0 =>
          simp at hv; subst hv
          exact C20_encoded_represents t t.helper.zero
        | h + 1 => simp at hv
    cases t with
    | uint w =>
      refine ⟨(uintHelper 128).toValue 0, Ts ++ [.uint .w128], ?_, ?_, Or.inr ⟨w, rfl⟩⟩
      · rw [← registerAll_append]
        exact Dpf.integers_eq _ env alpha [0] seed0 seed1
      · have := betas_integers (params := oneLevel log (.uint w)) (w := fun _ => w) (beta := [0]) rfl (by
          intro h x hx
          match h with
          | 0 => simp at hx; subst hx; exact Nat.two_pow_pos _
          | h + 1 => simp at hx)
        refine ⟨rfl, ?_⟩
        intro h v hv
        have h2 := this.2 h v hv
        match h with
        | 0 => exact h2
        | h + 1 => simp at hv
    | xorWrapper w => exact typed
    | intModN w m => exact typed
    | tuple ts => exact typed
  obtain ⟨beta, Ts', e, hb, hreg⟩ := key
  have hs : Setup fp (oneLevel log t) (fun _ => t) (d0.registerAll Ts') :=
    Setup.of_flat hd0 (by
      intro h p hp
      match h with
      | 0 => simp [oneLevel] at hp; subst hp; rfl
      | h + 1 => simp [oneLevel] at hp) (fun _ _ => hreg) (fun _ _ => hflat)
  have ha : alpha.toNat < 2 ^ lastLogSize (oneLevel log t) := by rw [oneLevel_last]; exact halpha
  obtain ⟨k0, k1, hk, hsh⟩ := C01_point_function_partial fp _ _ _ hs env alpha ha _ _ hb seed0 seed1
  obtain ⟨k0', k1', hk', hacc⟩ := C17_keys_accepted fp _ _ _ hs env alpha ha _ _ hb seed0 seed1
  rw [hk] at hk'
  obtain ⟨rfl, rfl⟩ := Prod.mk.inj (Res.ok.inj hk')
  obtain ⟨_, ⟨ctx, hctx, _⟩, _⟩ := hacc k0 (Or.inl rfl)
  exact ⟨k0, k1, Ts', ctx, by rw [e, hk], hs, hsh, hctx⟩

/-! ### Lists of lists -/

theorem mapRes_ok_of_forall {α β : Type} {f : α → Res β} {l : List α} (h : ∀ a ∈ l, ∃ b, f a = ok b) : ∃ bs, mapRes f l = ok bs := by
  induction l with
  | nil => exact ⟨[], rfl⟩
  | cons a l ih =>
    obtain ⟨b, hb⟩ := h a (by simp)
    obtain ⟨bs, hbs⟩ := ih fun a ha => h a (by simp [ha])
    exact ⟨b :: bs, by rw [mapRes, hb, hbs]⟩

theorem flatMap_replicate_get {α : Type} {m : Nat} (hm : 0 < m) : (l : List α) → (i : Nat) →
    (l.flatMap fun k => List.replicate m k)[i]? = l[i / m]?
  | [], i => by simp
  | x :: l, i => by
    rw [List.flatMap_cons]
    by_cases h : i < m
    · rw [List.getElem?_append_left (by simpa using h), List.getElem?_replicate, if_pos h, Nat.div_eq_of_lt h]; rfl
    · rw [List.getElem?_append_right (by simpa using h), List.length_replicate, flatMap_replicate_get hm l (i - m)]
      have : i / m = (i - m) / m + 1 := by
        rw [Nat.div_eq_sub_div hm (by omega)]
      rw [this, List.getElem?_cons_succ]

theorem flatMap_chunk {α β : Type} {f : α → List β} {m : Nat} : (l : List α) → (∀ b ∈ l, (f b).length = m) → (i : Nat) →
    (b : α) → l[i]? = some b → ((l.flatMap f).drop (i * m)).take m = f b
  | [], _, i, b, h => by simp at h
  | x :: l, hl, 0, b, h => by
    simp at h; subst h
    have := hl x (by simp)
    rw [Nat.zero_mul, List.drop_zero, List.flatMap_cons, List.take_append_of_le_length (by omega),
      List.take_of_length_le (by omega)]
  | x :: l, hl, i + 1, b, h => by
    have hx := hl x (by simp)
    rw [List.flatMap_cons, show (i + 1) * m = (f x).length + i * m by rw [hx, Nat.succ_mul]; omega,
      ← List.drop_drop, List.drop_left]
    exact flatMap_chunk l (fun b hb => hl b (by simp [hb])) i b (by simpa using h)

/-! ### Loops -/

theorem keyGenerationLoop_ok {fp : FpEnv} {sizes : List Nat} {L : Nat} (g : LevelsUpTo L sizes) (hL : L < 128) {d0 : Dpf}
    (hd0 : Dpf.createIncremental fp (sizeParams .w32 sizes) = ok d0) (env : Env) : (draws : List (U128 × U128 × U128)) → (Ts : List Ty) →
    ∃ keys Ts', keyGenerationLoop env ((1 : U128) <<< L - 1) (List.replicate sizes.length 23) draws (d0.registerAll Ts) =
        ok (keys, d0.registerAll Ts') ∧ keys.length = draws.length ∧
      Setup fp (sizeParams .w32 sizes) (fun _ => .uint .w32) (d0.registerAll Ts') ∧
      ∀ (i : Nat) (x s0 s1 : U128), draws[i]? = some (x, s0, s1) → ∃ k0 k1, keys[i]? = some (k0, k1) ∧
        SharesPoint (sizeParams .w32 sizes) (fun _ => .uint .w32) (d0.registerAll Ts') env (BitVec.ofNat 128 (x.toNat % 2 ^ L))
          (fun _ => (23 : BitVec 32)) k0 k1
  | [], Ts => ⟨[], Ts, rfl, rfl, Setup.of_flat hd0 (by
      intro h p hp
      obtain ⟨a, _, rfl⟩ := sizeParams_mem (List.mem_of_getElem? hp); rfl)
      (fun _ _ => Or.inr ⟨_, rfl⟩) (fun _ _ => Or.inl rfl), by intro i x s0 s1 h; simp at h⟩
  | (x, s0, s1) :: draws, Ts => by
    have hall : ∀ p ∈ sizeParams .w32 sizes, p.valueType = some (.integer Width.w32.bits) := by
      intro p hp
      obtain ⟨a, _, rfl⟩ := sizeParams_mem hp; rfl
    have hmask : x &&& ((1 : U128) <<< L - 1) = BitVec.ofNat 128 (x.toNat % 2 ^ L) := by
      apply BitVec.eq_of_toNat_eq
      rw [and_mask_toNat hL, BitVec.toNat_ofNat, Nat.mod_eq_of_lt (Nat.lt_of_le_of_lt (Nat.mod_le _ _) x.isLt)]
    have hlt : (x &&& ((1 : U128) <<< L - 1)).toNat < 2 ^ L := by
      rw [and_mask_toNat hL]; exact Nat.mod_lt _ (Nat.two_pow_pos _)
    obtain ⟨k0, k1, d', hk, hs, hsh⟩ := (C59_integers fp _ (fun _ => .w32) (d0.registerAll Ts) ⟨d0, Ts, hd0, rfl⟩
      (fun h p hp => hall p (List.mem_of_getElem? hp)) env (x &&& ((1 : U128) <<< L - 1)) (List.replicate sizes.length 23) s0 s1).1
      ⟨by rw [List.length_replicate, sizeParams_length], by
        intro h y hy
        have := List.eq_of_mem_replicate (List.mem_of_getElem? hy)
        subst this; decide, by rw [lastLogSize_sizes g]; exact hlt⟩
    have ed : d' = d0.registerAll (Ts ++ (List.replicate sizes.length (23 : U128)).map fun _ => Ty.uint .w128) := by
      rw [Dpf.integers_eq] at hk
      rw [← (Prod.mk.inj hk).2, registerAll_append]
    subst ed
    obtain ⟨keys, Ts', e, hlen, hs', hi⟩ := keyGenerationLoop_ok g hL hd0 env draws
      (Ts ++ (List.replicate sizes.length (23 : U128)).map fun _ => Ty.uint .w128)
    refine ⟨(k0, k1) :: keys, Ts', ?_, by simp [hlen], hs', ?_⟩
    · rw [keyGenerationLoop]
      rw [hk]
      dsimp only [value]
      rw [bind_ok, e]; rfl
    · intro i y t0 t1 h
      match i with
      | 0 =>
        simp at h
        obtain ⟨rfl, rfl, rfl⟩ := h
        refine ⟨k0, k1, rfl, ?_⟩
        rw [← hmask]
        have := SharesPoint.registerAll hsh Ts'
        intro h hh points hp
        obtain ⟨v0, v1, a1, a2, a3, a4, a5⟩ := this h hh points hp
        refine ⟨v0, v1, a1, a2, a3, a4, ?_⟩
        rw [a5]
        dsimp only
        rw [sizeParams_length] at hh
        rw [List.getD_eq_getElem?_getD, List.getElem?_replicate, if_pos hh]
        rfl
      | i + 1 => exact hi i y t0 t1 (by simpa using h)

theorem batchKeys_ok {fp : FpEnv} {log : Nat} (hlog : log < 128) {t : Ty} (hflat : t.flat = true ∨ t.noMod = true) {d0 : Dpf}
    (hd0 : Dpf.createIncremental fp (oneLevel log t) = ok d0) (env : Env) : (draws : List BatchDraw) → (Ts : List Ty) →
    ∃ keys Ts', batchKeys env t ((1 : U128) <<< log - 1) draws (d0.registerAll Ts) = ok (keys, d0.registerAll Ts') ∧
      keys.length = draws.length ∧
      ∀ (i : Nat) b, draws[i]? = some b → ∃ k0 k1, keys[i]? = some k0 ∧
        SharesPoint (oneLevel log t) (fun _ => t) (d0.registerAll Ts') env (BitVec.ofNat 128 (b.alpha.toNat % 2 ^ log))
          (fun _ => t.helper.zero) k0 k1
  | [], Ts => ⟨[], Ts, rfl, rfl, by intro i b h; simp at h⟩
  | b :: draws, Ts => by
    have hmask : b.alpha &&& ((1 : U128) <<< log - 1) = BitVec.ofNat 128 (b.alpha.toNat % 2 ^ log) := by
      apply BitVec.eq_of_toNat_eq
      rw [and_mask_toNat hlog, BitVec.toNat_ofNat, Nat.mod_eq_of_lt (Nat.lt_of_le_of_lt (Nat.mod_le _ _) b.alpha.isLt)]
    have hlt : (b.alpha &&& ((1 : U128) <<< log - 1)).toNat < 2 ^ log := by
      rw [and_mask_toNat hlog]; exact Nat.mod_lt _ (Nat.two_pow_pos _)
    obtain ⟨k0, k1, Ts1, ctx, hk, _, hsh, _⟩ := zeroKeys_ok hflat hd0 Ts env hlt b.seed0 b.seed1
    obtain ⟨keys, Ts', e, hlen, hi⟩ := batchKeys_ok hlog hflat hd0 env draws Ts1
    refine ⟨k0 :: keys, Ts', ?_, by simp [hlen], ?_⟩
    · rw [batchKeys]
      rw [hk]
      dsimp only [value]
      rw [bind_ok, e]; rfl
    · intro i c h
      match i with
      | 0 =>
        simp at h; subst h
        rw [← hmask]
        exact ⟨k0, k1, rfl, SharesPoint.registerAll hsh Ts'⟩
      | i + 1 => exact hi i c (by simpa using h)

/-! ### DCFs -/

theorem applyLoop_registry {α σ : Type} (pv : ProtoValidator) (b : List Nat) (r r' : List (ValueType × ValueCorrectionFunction))
    (env : Env) (H : Helper α) (keys : List DpfKey) (points : List U128) (shift : Int) (op : σ → List α → Bool × σ) :
    (hs : List Nat) → (st : Dpf.ApplyState) → (s : σ) →
    Dpf.applyLoop ⟨pv, b, r'⟩ env H keys points shift op hs st s = Dpf.applyLoop ⟨pv, b, r⟩ env H keys points shift op hs st s
  | [], _, _ => rfl
  | h :: hs, st, s => by
    rw [Dpf.applyLoop, Dpf.applyLoop]
    have : Dpf.applyLevel ⟨pv, b, r'⟩ env H keys points shift st h = Dpf.applyLevel ⟨pv, b, r⟩ env H keys points shift st h := rfl
    rw [this]
    congr 1
    funext x
    dsimp only
    rw [applyLoop_registry pv b r r' env H keys points shift op hs]

theorem evaluateAndApply_registry {α : Type} {d d' : Dpf} (h1 : d'.pv = d.pv) (h2 : d'.blocksNeeded = d.blocksNeeded)
    (env : Env) (H : Helper α) {σ : Type} (keys : List DpfKey) (points : List U128) (op : σ → List α → Bool × σ) (s : σ) (r : Int) :
    d'.evaluateAndApply env H keys points op s r = d.evaluateAndApply env H keys points op s r := by
  obtain ⟨pv, b, r⟩ := d
  obtain ⟨pv', b', r'⟩ := d'
  dsimp only at h1 h2
  subst h1 h2
  unfold Dpf.evaluateAndApply
  simp only [applyLoop_registry pv' b' r r']

theorem dcfBatchInto_registry {α : Type} {c : Dcf} (Ts Ts' : List Ty) (env : Env) (H : Helper α) (keys : List DcfKey)
    (points : List U128) (output : List α) :
    (c.registerAll Ts').batchEvaluateInto env H keys points output = (c.registerAll Ts).batchEvaluateInto env H keys points output := by
  have h1 : (c.dpf.registerAll Ts').pv = (c.dpf.registerAll Ts).pv := by
    rw [(c.dpf.registerAll_pv Ts').1, (c.dpf.registerAll_pv Ts).1]
  have h2 : (c.dpf.registerAll Ts').blocksNeeded = (c.dpf.registerAll Ts).blocksNeeded := by
    rw [(c.dpf.registerAll_pv Ts').2, (c.dpf.registerAll_pv Ts).2]
  unfold Dcf.batchEvaluateInto Dcf.batchRun Dcf.registerAll
  simp only [evaluateAndApply_registry h1 h2]

theorem dcfEvaluate_registry {α : Type} {c : Dcf} (Ts Ts' : List Ty) (env : Env) (H : Helper α) (key : DcfKey) (x : U128) :
    (c.registerAll Ts').evaluate env H key x = (c.registerAll Ts).evaluate env H key x := by
  unfold Dcf.evaluate
  rw [dcfBatchInto_registry Ts]

theorem dcfKeys_ok {fp : FpEnv} {log : Nat} (hlog : log ≤ 128) {w : Width} {mask : U128}
    (hmask : ∀ x : U128, (x &&& mask).toNat = x.toNat % 2 ^ log) {c0 : Dcf}
    (hc0 : Dcf.create fp ⟨(log : Int), some (Ty.uint w).helper.toValueType, .val 0⟩ = ok c0)
    (bytes : ∀ k ∈ c0.dpf.blocksNeeded, (Ty.uint w).bytesRead ≤ 16 * k) (env : Env) : (draws : List (DcfDraw w)) → (Ts : List Ty) →
    ∃ keys Ts', dcfKeys env w mask draws (c0.registerAll Ts) = ok (keys, c0.registerAll Ts') ∧ keys.length = draws.length ∧
      ∀ (i : Nat) b, draws[i]? = some b → ∃ k0 k1, keys[i]? = some k0 ∧
        SharesComparison log (.uint w) (c0.registerAll Ts') env (b.alpha.toNat % 2 ^ log) b.beta k0 k1
  | [], Ts => ⟨[], Ts, rfl, rfl, by intro i b h; simp at h⟩
  | b :: draws, Ts => by
    obtain ⟨k0, k1, c, hk, hsh⟩ := C27_typed_partial fp ⟨(log : Int), some (Ty.uint w).helper.toValueType, .val 0⟩ (.uint w) rfl
      c0 Ts hc0 rfl (by dsimp only; omega) bytes env (b.alpha &&& mask) (by
        rw [hmask]; exact Nat.mod_lt _ (Nat.two_pow_pos _)) b.beta b.seed0 b.seed1
    have ec : c = c0.registerAll (Ts ++ [.uint w]) := by
      have : ((c0.registerAll Ts).generateKeysFor env (Ty.uint w).helper (b.alpha &&& mask) b.beta b.seed0 b.seed1).2 =
          c0.registerAll (Ts ++ [.uint w]) := by
        show (c0.registerAll Ts).register (Ty.uint w).helper = _
        simp [Dcf.registerAll, Dcf.register, Dpf.registerAll]
      rw [hk] at this
      exact this
    subst ec
    obtain ⟨keys, Ts', e, hlen, hi⟩ := dcfKeys_ok hlog hmask hc0 bytes env draws (Ts ++ [.uint w])
    refine ⟨k0 :: keys, Ts', ?_, by simp [hlen], ?_⟩
    · rw [dcfKeys]
      rw [hk]
      dsimp only [value]
      rw [bind_ok, e]; rfl
    · intro i c h
      match i with
      | 0 =>
        simp at h; subst h
        refine ⟨k0, k1, rfl, ?_⟩
        intro x hx
        obtain ⟨v0, v1, a1, a2, a3⟩ := hsh x hx
        rw [hmask] at a3
        exact ⟨v0, v1, by rw [dcfEvaluate_registry (Ts ++ [.uint w])]; exact a1,
          by rw [dcfEvaluate_registry (Ts ++ [.uint w])]; exact a2, a3⟩
      | i + 1 => exact hi i c (by simpa using h)

theorem dcf_bytes {fp : FpEnv} {p : DpfParameters} {w : Width} {c0 : Dcf} (hc0 : Dcf.create fp p = ok c0)
    (ht : p.valueType = some (Ty.uint w).helper.toValueType) : ∀ k ∈ c0.dpf.blocksNeeded, (Ty.uint w).bytesRead ≤ 16 * k := by
  have hd := Dcf.create_spec hc0
  have := Setup.of_flat (Ts := []) (T := fun _ => .uint w) hd.2.2 (by
    intro h q hq
    obtain ⟨_, rfl⟩ := Dcf.dpfParameters_get hq
    show some p.vt = _
    rw [DpfParameters.vt, ht]; rfl) (fun _ _ => Or.inr ⟨_, rfl⟩) (fun _ _ => Or.inl rfl)
  intro k hk
  obtain ⟨i, hi, rfl⟩ := List.getElem_of_mem hk
  exact this.bytes i _ (List.getElem?_eq_getElem hi)

/-! ### Gates -/

theorem micEval_registry {g0 : Mic} (Ts Ts' : List Ty) (env : Env) (key : MicKey) (x : U128) :
    (⟨g0.params, g0.dcf.registerAll Ts'⟩ : Mic).eval env key x = (⟨g0.params, g0.dcf.registerAll Ts⟩ : Mic).eval env key x := by
  unfold Mic.eval Mic.batchEval Dcf.batchEvaluate
  simp only [dcfBatchInto_registry Ts Ts']
  rfl

theorem micKeys_ok {fp : FpEnv} {params : MicParameters} {g0 : Mic} (hg0 : Mic.create fp params = ok g0) (env : Env)
    (hint : params.intervals.length < 2 ^ 31) (hlog : 64 ≤ params.logGroupSize) {rOut : List U128}
    (hlen : rOut.length = params.intervals.length) (hro : ∀ r ∈ rOut, r.toNat < 2 ^ params.logGroupSize.toNat) :
    (draws : List MicDraw) → (Ts : List Ty) →
    ∃ keys Ts', micKeys env rOut draws ⟨g0.params, g0.dcf.registerAll Ts⟩ = ok (keys, ⟨g0.params, g0.dcf.registerAll Ts'⟩) ∧
      keys.length = draws.length ∧ (∀ k ∈ keys, k.outputMaskShare.length = params.intervals.length) ∧
      ∀ (i : Nat) b, draws[i]? = some b → ∃ k0 k1, keys[i]? = some k0 ∧
        ∀ (x : Nat) (X : U128), x < 2 ^ params.logGroupSize.toNat → X.toNat = (x + b.rIn.toNat) % 2 ^ params.logGroupSize.toNat →
        ∃ ys0 ys1, (⟨g0.params, g0.dcf.registerAll Ts'⟩ : Mic).eval env k0 X = ok ys0 ∧
          (⟨g0.params, g0.dcf.registerAll Ts'⟩ : Mic).eval env k1 X = ok ys1 ∧
          ys0.length = params.intervals.length ∧ ys1.length = params.intervals.length ∧
          ∀ (j : Nat) (iv : Interval) (r y0 y1 : U128), params.intervals[j]? = some iv → rOut[j]? = some r →
            ys0[j]? = some y0 → ys1[j]? = some y1 →
            (y0.toNat + y1.toNat) % 2 ^ params.logGroupSize.toNat =
              (r.toNat + if iv.p.toNat ≤ x ∧ x ≤ iv.q.toNat then 1 else 0) % 2 ^ params.logGroupSize.toNat
  | [], Ts => ⟨[], Ts, rfl, rfl, by simp, by intro i b h; simp at h⟩
  | b :: draws, Ts => by
    have hs : MicSetup fp params ⟨g0.params, g0.dcf.registerAll Ts⟩ := ⟨g0, Ts, hg0, rfl⟩
    have hr : (b.rIn.setWidth 128).toNat < 2 ^ params.logGroupSize.toNat := by
      rw [BitVec.toNat_setWidth_of_le (by omega)]
      exact Nat.lt_of_lt_of_le b.rIn.isLt (Nat.pow_le_pow_right (by omega) (by omega))
    obtain ⟨k0, k1, g', hg, hs', h⟩ := hs.correct env hr hlen hro b.seed0 b.seed1 b.rand
    have eg : g' = ⟨g0.params, g0.dcf.registerAll (Ts ++ [.uint .w128])⟩ ∧ k0.outputMaskShare.length = params.intervals.length := by
      have := hs.gen_eq env hr hlen hro b.seed0 b.seed1 b.rand
      rw [hg] at this
      obtain ⟨e1, e2⟩ := Prod.mk.inj this
      constructor
      · rw [e2]
        show (⟨g0.params, (g0.dcf.registerAll Ts).register (uintHelper 128)⟩ : Mic) = _
        simp only [Dcf.register, Dcf.registerAll, Dpf.registerAll, List.foldl_append, List.foldl_cons, List.foldl_nil]
        rfl
      · obtain ⟨k, _, e3⟩ := bind_eq_ok.mp e1.symm
        have := congrArg (fun p : MicKey × MicKey => p.1.outputMaskShare.length) (Res.ok.inj e3)
        simpa using this.symm
    obtain ⟨rfl, hm⟩ := eg
    obtain ⟨keys, Ts', e, hl, hms, hi⟩ := micKeys_ok hg0 env hint hlog hlen hro draws (Ts ++ [.uint .w128])
    refine ⟨k0 :: keys, Ts', ?_, by simp [hl], ?_, ?_⟩
    · rw [micKeys, hg]
      dsimp only [value]
      rw [bind_ok, e]; rfl
    · intro k hk
      rcases List.mem_cons.mp hk with rfl | hk
      · exact hm
      · exact hms k hk
    · intro i c hc
      match i with
      | 0 =>
        simp at hc; subst hc
        refine ⟨k0, k1, rfl, ?_⟩
        intro x X hx hX
        rw [← BitVec.toNat_setWidth_of_le (b := b.rIn) (show 64 ≤ 128 by omega)] at hX
        obtain ⟨ys0, ys1, a1, a2, a3⟩ := h hint x X hx hX
        exact ⟨ys0, ys1, by rw [micEval_registry (Ts ++ [.uint .w128])]; exact a1,
          by rw [micEval_registry (Ts ++ [.uint .w128])]; exact a2, a3⟩
      | i + 1 => exact hi i c (by simpa using hc)

theorem micInterval_zero (x y : BitVec 64) : (micInterval x y).p = 0 ∧ (micInterval x y).q = 0 := by
  unfold micInterval
  split <;> exact ⟨rfl, rfl⟩

theorem micCreate_ok (fp : FpEnv) (intervals : List IntervalDraw) : ∃ g, Mic.create fp (micParameters intervals) = ok g := by
  obtain ⟨c, hc⟩ := C29_accepts fp ⟨64, some (uintHelper 128).toValueType, .val 0⟩
    (by decide) (by decide) (.uint .w128) rfl (by decide) rfl
  refine ⟨⟨micParameters intervals, c⟩, ?_⟩
  unfold Mic.create
  rw [failIf_false (by show ¬ ((64 : Int) < 0 ∨ (64 : Int) > 127); decide), bind_ok]
  have hm : mapRes (Mic.checkInterval ((1 : U128) <<< 64)) (micParameters intervals).intervals =
      ok ((micParameters intervals).intervals.map fun _ => ()) := by
    apply mapRes_eq_ok_map
    intro iv hiv
    obtain ⟨d, _, rfl⟩ := List.mem_map.mp hiv
    obtain ⟨hp, hq⟩ := micInterval_zero d.x d.y
    unfold Mic.checkInterval
    rw [failIf_false (by unfold micInterval; split <;> simp), bind_ok, hp, hq, failIf_false (by decide), bind_ok,
      bind_ok, failIf_false (by decide)]
  show (shl128 1 64 >>= fun N => _) = _
  rw [show shl128 (1 : U128) 64 = ok ((1 : U128) <<< 64) from shl128_ok (n := 64) (by omega), bind_ok, hm, bind_ok]
  show (Dcf.create fp ⟨64, some (uintHelper 128).toValueType, .val 0⟩ >>= _) = _
  rw [hc, bind_ok]

end Verif
