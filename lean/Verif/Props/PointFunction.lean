import Verif.Lemmas.PointFunction
import Verif.Lemmas.KeyGenErrors
import Verif.Props.Values
/-!
# C01, C16 - C19: parameters, key generation and evaluation at points
-/
namespace Verif
open Res Spec

/-! ## A DPF used in the examples -/

/-- Three levels: bytes on a domain of 2^3 elements, pairs of a 64-bit integer and a number mod 11 on
2^10, XOR-shared 128-bit numbers on 2^128. -/
def exT : Nat → Ty
  | 0 => .uint .w8
  | 1 => .tuple (.cons (.uint .w64) (.one (.intModN .w32 11#128 (by decide) (by decide))))
  | _ => .xorWrapper .w128

/-- Their parameters. -/
def exParams : List DpfParameters :=
  [⟨3, some (exT 0).helper.toValueType, .val 0⟩, ⟨10, some (exT 1).helper.toValueType, .val 40⟩,
   ⟨128, some (exT 2).helper.toValueType, .val 0⟩]

/-- Floating-point results used in the examples. -/
def exFp : FpEnv := ⟨fun _ _ => 80, fun _ => 0⟩

theorem exSetup : ∃ d, Setup exFp exParams exT d := by
  have h : (match Dpf.createIncremental exFp exParams with
    | .ok _ => true
    | _ => false) = true := by decide +kernel
  split at h
  · rename_i d hd
    refine ⟨_, Setup.of_flat (Ts := [exT 1, exT 2]) hd ?_ ?_ ?_⟩
    · intro h p hp
      match h, hp with
      | 0, hp => simp [exParams] at hp; rw [← hp]
      | 1, hp => simp [exParams] at hp; rw [← hp]
      | 2, hp => simp [exParams] at hp; rw [← hp]
      | h + 3, hp => simp [exParams] at hp
    · intro h hh
      match h, hh with
      | 0, _ => exact Or.inr ⟨.w8, rfl⟩
      | 1, _ => exact Or.inl (by simp)
      | 2, _ => exact Or.inl (by simp)
      | h + 3, hh => simp [exParams] at hh; omega
    · intro h hh
      match h, hh with
      | 0, _ => exact Or.inl rfl
      | 1, _ => exact Or.inl rfl
      | 2, _ => exact Or.inl rfl
      | h + 3, hh => simp [exParams] at hh; omega
  · simp at h

/-- Values for the three levels. -/
def exB : (h : Nat) → (exT h).den
  | 0 => 7#8
  | 1 => (5#64, ⟨10#32, by decide⟩)
  | _ + 2 => 9#128

/-- Their messages, in different encodings. -/
def exBeta : List Value :=
  [.integer (.u64 7), .tuple [.integer (.u128 0 5), .intModN (.u64 10)], .xorWrapper (.u64 9)]

theorem exBetas : BetasRepresent exParams exT exBeta exB := by
  refine ⟨rfl, ?_⟩
  intro h v hv
  match h, hv with
  | 0, hv => simp [exBeta] at hv; subst hv; exact ⟨_, rfl, rfl⟩
  | 1, hv =>
    simp [exBeta] at hv; subst hv
    exact ⟨_, rfl, _, _, rfl, ⟨_, rfl, rfl⟩, _, rfl, _, rfl, rfl⟩
  | 2, hv => simp [exBeta] at hv; subst hv; exact ⟨_, rfl, rfl⟩
  | h + 3, hv => simp [exBeta] at hv

/-! ## C01 -/

/-- C01, for all DPFs whose reserved bytes suffice (`Setup.bytes`; all types without tuples nested in
tuples and all types without `IntModN`): key generation succeeds, `EvaluateAt` succeeds on both keys
and the results add up to beta at the prefix of alpha and to zero elsewhere. Missing: value types for
which too few bytes are reserved, where the claim is false (`C01_refuted`). -/
theorem C01_point_function_partial (fp : FpEnv) (params : List DpfParameters) (T : Nat → Ty)
    (d : Dpf) (hs : Setup fp params T d) (env : Env) (alpha : U128)
    (halpha : alpha.toNat < 2 ^ lastLogSize params) (beta : List Value)
    (b : (h : Nat) → (T h).den) (hb : BetasRepresent params T beta b) (seed0 seed1 : U128) :
    ∃ k0 k1, d.generateKeysIncremental env alpha beta seed0 seed1 = ok (k0, k1) ∧
      ∀ h, h < params.length → ∀ points : List U128,
        (∀ x ∈ points, x.toNat < 2 ^ logSize params h) →
        ∃ v0 v1, d.evaluateAt env (T h).helper k0 h points = ok v0 ∧
          d.evaluateAt env (T h).helper k1 h points = ok v1 ∧
          v0.length = points.length ∧ v1.length = points.length ∧
          List.zipWith (T h).helper.add v0 v1 = points.map fun x =>
            if x.toNat = alphaPrefix params alpha h then b h else (T h).helper.zero := by
  have hc := hs.toCreated
  have wf := hs.wf
  obtain ⟨k0, k1, hk, g⟩ := wf.generateKeys_ok env (hs.betasOk hb) (alpha := alpha)
    (by rw [hc.last_eq]; exact halpha) seed0 seed1
  refine ⟨k0, k1, hk, ?_⟩
  intro h hh points hp
  have hh' : h < d.n := by rw [hc.n_eq]; exact hh
  have ht := hs.typedAt hh'
  obtain ⟨ok0, ok1⟩ := g.keyOk wf (fun h hh => hs.typedAt hh)
  have hp' : ∀ x ∈ points, x.toNat < 2 ^ d.logAt h := by
    intro x hx; rw [hc.logAt_eq]; exact hp x hx
  rw [wf.evaluateAt_ok env ok0 hh' ht hp', wf.evaluateAt_ok env ok1 hh' ht hp', g.corr0 hh' ht,
    g.corr1 hh' ht, bind_ok, bind_ok]
  by_cases he : points = []
  · subst he; exact ⟨[], [], rfl, rfl, rfl, rfl, rfl⟩
  · rw [if_neg he, if_neg he]
    refine ⟨_, _, rfl, rfl, by simp, by simp, ?_⟩
    rw [List.zipWith_map, List.zipWith_self]
    apply List.map_congr_left
    intro x hx
    rw [g.share_sum wf hh' ht (hp' x hx), alphaPrefix, hc.last_eq, hc.logAt_eq]

/-- C01, the types missing above: if the bytes reserved for the type of some level are fewer than the type
reads, key generation aborts for every valid input, whatever the seeds. With `C01_point_function_partial` this
decides every DPF with registered types. -/
theorem C01_aborts (fp : FpEnv) (params : List DpfParameters) (T : Nat → Ty)
    (d : Dpf) (hs : SetupTypes fp params T d) (env : Env) (alpha : U128)
    (halpha : alpha.toNat < 2 ^ lastLogSize params) (beta : List Value)
    (b : (h : Nat) → (T h).den) (hb : BetasRepresent params T beta b) (seed0 seed1 : U128)
    (h k : Nat) (hk : d.blocksNeeded[h]? = some k) (hshort : 16 * k < (T h).bytesRead) :
    d.generateKeysIncremental env alpha beta seed0 seed1 = crash := by
  have hc := hs.toCreated
  have hl := (List.getElem?_eq_some_iff.mp hk)
  refine hc.wf.generateKeys_short env (hs.betasTyped hb) (by rw [hc.last_eq]; exact halpha) seed0 seed1 (h := h)
    (by rw [← hc.wf.len_blocks]; exact hl.1) ?_
  rw [Dpf.blocksAt, getD_eq_getElem _ _ _ hl.1, hl.2]
  exact hshort

/-- A DPF of two levels, the second one of a type for which too few bytes are reserved. -/
def exShortParams : List DpfParameters :=
  [⟨3, some (Ty.helper (.uint .w8)).toValueType, .val 40⟩, ⟨10, some exNested.helper.toValueType, .val 40⟩]

/-- The types of its levels. -/
def exShortT : Nat → Ty
  | 0 => .uint .w8
  | _ => exNested

/-- C01 is false for value types for which too few bytes are reserved (see `C26_refuted`): a DPF of two
levels can be created with such a type and no key can be generated. -/
theorem C01_refuted : ∃ (fp : FpEnv) (d : Dpf), SetupTypes fp exShortParams exShortT d ∧
    ∀ (env : Env) (alpha : U128), alpha.toNat < 2 ^ 10 → ∀ beta b, BetasRepresent exShortParams exShortT beta b →
    ∀ seed0 seed1, d.generateKeysIncremental env alpha beta seed0 seed1 = crash := by
  have h : (match Dpf.createIncremental exFp exShortParams with
    | .ok d => some d.blocksNeeded
    | _ => none) = some [1, 2] := by decide +kernel
  split at h
  · rename_i d0 hd
    have hs : SetupTypes exFp exShortParams exShortT (d0.registerAll [exNested]) := by
      refine ⟨⟨d0, _, hd, rfl, ?_⟩, ?_⟩
      · intro h hh
        match h with
        | 0 => exact Or.inr ⟨_, rfl⟩
        | h + 1 => exact Or.inl (by simp [exShortT])
      · intro h p hp
        match h, hp with
        | 0, hp => simp [exShortParams] at hp; rw [← hp]; rfl
        | 1, hp => simp [exShortParams] at hp; rw [← hp]; rfl
        | h + 2, hp => simp [exShortParams] at hp
    refine ⟨exFp, _, hs, ?_⟩
    intro env alpha ha beta b hb seed0 seed1
    simp only [Option.some.injEq] at h
    refine C01_aborts _ _ _ _ hs env alpha ha beta b hb seed0 seed1 1 2 ?_ (by decide)
    rw [(d0.registerAll_pv [exNested]).2, h]; rfl
  · simp at h

/-- There are messages for that DPF. -/
example : ∃ beta b, BetasRepresent exShortParams exShortT beta b :=
  ⟨[(Ty.helper (.uint .w8)).toValue 7#8, exNested.helper.toValue exNested.helper.zero],
    fun | 0 => 7#8 | _ + 1 => exNested.helper.zero, rfl, fun h v hv => by
      match h, hv with
      | 0, hv => simp at hv; subst hv; exact C20_encoded_represents (.uint .w8) 7#8
      | 1, hv => simp at hv; subst hv; exact C20_encoded_represents exNested exNested.helper.zero
      | h + 2, hv => simp at hv⟩

/-- C01 on the example: a point of the second level. -/
example : ∃ d k0 k1, Setup exFp exParams exT d ∧
    d.generateKeysIncremental { aes := fun k x => k ^^^ x } 12345 exBeta 1 2 = ok (k0, k1) ∧
    ∃ v0 v1, d.evaluateAt { aes := fun k x => k ^^^ x } (exT 1).helper k0 (1 : Nat) [0, 3] = ok v0 ∧
      d.evaluateAt { aes := fun k x => k ^^^ x } (exT 1).helper k1 (1 : Nat) [0, 3] = ok v1 ∧
      List.zipWith (exT 1).helper.add v0 v1 = [exB 1, (exT 1).helper.zero] := by
  obtain ⟨d, hd⟩ := exSetup
  obtain ⟨k0, k1, h1, h2⟩ := C01_point_function_partial _ _ _ d hd { aes := fun k x => k ^^^ x } 12345
    (by decide +kernel) exBeta exB exBetas 1 2
  obtain ⟨v0, v1, h3, h4, _, _, h5⟩ := h2 1 (by decide) [0, 3] (by
    intro x hx
    simp only [List.mem_cons, List.not_mem_nil, or_false] at hx
    rcases hx with rfl | rfl <;> decide +kernel)
  refine ⟨d, k0, k1, hd, h1, v0, v1, h3, h4, ?_⟩
  rw [h5]
  have e : alphaPrefix exParams 12345 1 = 0 := by decide +kernel
  have e0 : BitVec.toNat (0 : U128) = 0 := rfl
  have e3 : BitVec.toNat (3 : U128) = 3 := rfl
  rw [e, List.map_cons, List.map_cons, List.map_nil, e0, e3, if_pos rfl, if_neg (by decide)]

/-! ## C16 -/

/-- C16: a parameter list that is not valid is rejected with INVALID_ARGUMENT. -/
theorem C16_rejects (fp : FpEnv) (params : List DpfParameters) (h : ¬ ValidParams params) :
    Dpf.createIncremental fp params = err .invalidArgument := by
  have h1 : validateParameters params = err .invalidArgument := by
    rcases validateParameters_cases params with ⟨_, h1⟩ | h1
    · exact absurd ((validateParameters_iff params).mp h1) h
    · exact h1
  unfold Dpf.createIncremental ProtoValidator.create
  rw [h1]; rfl

/-- C16: what the level maps of a created DPF satisfy. -/
theorem C16_levels (fp : FpEnv) (params : List DpfParameters) (d : Dpf)
    (hd : Dpf.createIncremental fp params = ok d) :
    ValidParams params ∧
    d.pv.parameters.map (·.logDomainSize) = params.map (·.logDomainSize) ∧
    d.pv.hierarchyToTree.length = params.length ∧
    d.pv.hierarchyToTree.Pairwise (· < ·) ∧
    (∀ (h t : Nat) (p : DpfParameters), d.pv.hierarchyToTree[h]? = some t → params[h]? = some p →
      (t : Int) ≤ p.logDomainSize ∧
      ∀ T : Ty, p.valueType = some T.helper.toValueType →
        2 ^ (p.logDomainSize.toNat - t) ≤ T.helper.elementsPerBlock) ∧
    (∀ h t : Nat, d.pv.treeToHierarchy.lookup t = some h ↔ d.pv.hierarchyToTree[h]? = some t) ∧
    d.pv.hierarchyToTree.getLast? = some (d.pv.treeLevelsNeeded - 1) := by
  have wf := createIncremental_wf hd
  have hc : Created fp params d := ⟨d, [], hd, rfl⟩
  obtain ⟨hpv, _, _⟩ := createIncremental_spec hd
  obtain ⟨hv, hpp, inv⟩ := create_spec hpv
  have htree : ∀ h t, d.pv.hierarchyToTree[h]? = some t → h < d.n ∧ d.treeAt h = t := by
    intro h t e
    obtain ⟨hlt, e⟩ := List.getElem?_eq_some_iff.mp e
    exact ⟨by rw [← wf.len_tree]; exact hlt, by rw [Dpf.treeAt, getD_eq_getElem _ _ _ hlt, e]⟩
  refine ⟨hv, ?_, by rw [wf.len_tree, hc.n_eq], inv.asc, ?_, ?_, ?_⟩
  · rw [hpp, List.map_map]
    apply List.map_congr_left
    intro p _
    exact withDefaultSecurity_log p
  · intro h t p ht hp
    obtain ⟨hh, rfl⟩ := htree h t ht
    have hlog : d.logAt h = p.logDomainSize.toNat := by rw [hc.logAt_eq, logSize, hp]
    have hr := (hv.log_range p (List.mem_of_getElem? hp)).1
    have := wf.tree_le h
    refine ⟨by omega, ?_⟩
    intro T hT
    rw [← hlog]
    exact createIncremental_elems hd hp hT
  · intro h t
    rw [wf.lookup]
    constructor
    · rintro ⟨hh, rfl⟩
      rw [← rd_eq_ok]; exact wf.tree_ok hh
    · exact htree h t
  · have := inv.last
    simp only [] at this
    rw [this]
    cases hl : d.pv.hierarchyToTree.getLast? with
    | none =>
      rw [List.getLast?_eq_none_iff] at hl
      have := wf.len_tree
      have := wf.pos
      rw [hl] at *
      simp at *
      omega
    | some t => simp

/-- The levels of the example: three, the last at depth 128. -/
example (d : Dpf) (hd : Dpf.createIncremental exFp exParams = ok d) :
    d.pv.hierarchyToTree.length = 3 ∧ d.pv.hierarchyToTree.Pairwise (· < ·) := by
  obtain ⟨_, _, h1, h2, _⟩ := C16_levels exFp exParams d hd
  exact ⟨h1, h2⟩

/-- C16 on the example: tree levels 0, 10 and 128. -/
example : ∃ d, Dpf.createIncremental exFp exParams = ok d ∧
    d.pv.hierarchyToTree = [0, 10, 128] ∧ d.blocksNeeded = [1, 2, 1] := by
  have h : (match Dpf.createIncremental exFp exParams with
    | .ok d => some (d.pv.hierarchyToTree, d.blocksNeeded)
    | _ => none) = some ([0, 10, 128], [1, 2, 1]) := by decide +kernel
  split at h
  · rename_i d hd
    simp only [Option.some.injEq, Prod.mk.injEq] at h
    exact ⟨d, hd, h⟩
  · simp at h

/-- A rejected list: descending domain sizes. -/
example : Dpf.createIncremental exFp [⟨3, some (.integer 8), .val 0⟩, ⟨3, some (.integer 8), .val 0⟩] =
    err .invalidArgument := by
  apply C16_rejects
  intro h
  have := h.log_ascending
  simp at this

/-! ## C17, C18 -/

/-- C17: both generated keys pass validation and give an evaluation context; they have one correction
word per tree level below the root; the value correction has the length of a block exactly at the
levels that produce output. -/
theorem C17_keys_accepted (fp : FpEnv) (params : List DpfParameters) (T : Nat → Ty) (d : Dpf)
    (hs : Setup fp params T d) (env : Env) (alpha : U128)
    (halpha : alpha.toNat < 2 ^ lastLogSize params) (beta : List Value)
    (b : (h : Nat) → (T h).den) (hb : BetasRepresent params T beta b) (seed0 seed1 : U128) :
    ∃ k0 k1, d.generateKeysIncremental env alpha beta seed0 seed1 = ok (k0, k1) ∧
      ∀ k, k = k0 ∨ k = k1 →
        d.pv.validateDpfKey k = ok () ∧
        (∃ ctx, d.createEvaluationContext k = ok ctx ∧ ctx.key = some k ∧
          d.pv.validateEvaluationContext ctx = ok ()) ∧
        d.pv.hierarchyToTree.getLast? = some k.correctionWords.length ∧
        (∀ h t cw, h + 1 < params.length → d.pv.hierarchyToTree[h]? = some t →
          k.correctionWords[t]? = some cw →
          cw.valueCorrection.length = (T h).helper.elementsPerBlock) ∧
        (∀ (t : Nat) cw, t ∉ d.pv.hierarchyToTree → k.correctionWords[t]? = some cw →
          cw.valueCorrection = []) ∧
        k.lastLevelValueCorrection.length = (T (params.length - 1)).helper.elementsPerBlock := by
  have hc := hs.toCreated
  have wf := hs.wf
  obtain ⟨k0, k1, hk, g⟩ := wf.generateKeys_ok env (hs.betasOk hb) (alpha := alpha)
    (by rw [hc.last_eq]; exact halpha) seed0 seed1
  refine ⟨k0, k1, hk, ?_⟩
  intro k hkk
  obtain ⟨ok0, ok1⟩ := g.keyOk wf (fun h hh => hs.typedAt hh)
  have hko : d.KeyOk k := by rcases hkk with rfl | rfl <;> assumption
  have hcw : k.correctionWords = k0.correctionWords := by
    rcases hkk with rfl | rfl
    · rfl
    · exact g.cws
  have hlast : k.lastLevelValueCorrection = k0.lastLevelValueCorrection := by
    rcases hkk with rfl | rfl
    · rfl
    · exact g.last
  have hpos := wf.pos
  have hval := (wf.validateDpfKey_iff k).mpr hko
  have htree : ∀ h t : Nat, d.pv.hierarchyToTree[h]? = some t → h < d.n ∧ d.treeAt h = t := by
    intro h t e
    obtain ⟨hlt, e⟩ := List.getElem?_eq_some_iff.mp e
    exact ⟨by rw [← wf.len_tree]; exact hlt, by rw [Dpf.treeAt, getD_eq_getElem _ _ _ hlt, e]⟩
  have hlen : ∀ h, h < d.n → ∀ vs, d.valueCorrectionOf k0 h = ok vs →
      vs.length = (T h).helper.elementsPerBlock := by
    intro h hh vs e
    rw [g.vc h hh] at e
    simp only [ok.injEq] at e
    rw [← e, List.length_map, Dpf.corrList_length env (hs.typedAt hh).fits]
  refine ⟨hval, ⟨⟨d.pv.parameters, some k, -1, [], 0⟩, ?_, rfl, ?_⟩, ?_, ?_, ?_, ?_⟩
  · unfold Dpf.createEvaluationContext
    rw [hval]; rfl
  · exact hs.validateEvaluationContext_ok rfl rfl hko (by dsimp only; omega) (Or.inl rfl)
  · rw [List.getLast?_eq_getElem?, wf.len_tree, ← rd_eq_ok, wf.tree_ok (by omega)]
    have := hko.len
    have := wf.needed
    congr 1; omega
  · intro h t cw hh ht hcw'
    obtain ⟨hh', rfl⟩ := htree h t ht
    refine hlen h hh' _ ?_
    unfold Dpf.valueCorrectionOf
    rw [if_pos (by have : d.pv.parameters.length = params.length := hc.n_eq
                   omega), wf.tree_ok hh', bind_ok, rd_eq_ok.mpr (hcw ▸ hcw'), bind_ok]
  · intro t cw hne hcw'
    refine g.novc t cw (hcw ▸ hcw') ?_
    rintro h hh rfl
    apply hne
    exact List.mem_of_getElem? (rd_eq_ok.mp (wf.tree_ok hh))
  · rw [← hc.n_eq]
    refine hlen _ (by omega) _ ?_
    unfold Dpf.valueCorrectionOf
    rw [if_neg (by unfold Dpf.n; unfold Dpf.n at hpos; omega), hlast]

/-- C17 on the example. -/
example : ∃ d k0 k1, Setup exFp exParams exT d ∧
    d.generateKeysIncremental { aes := fun k x => k ^^^ x } 12345 exBeta 1 2 = ok (k0, k1) ∧
    d.pv.validateDpfKey k1 = ok () := by
  obtain ⟨d, hd⟩ := exSetup
  obtain ⟨k0, k1, h1, h2⟩ := C17_keys_accepted _ _ _ d hd { aes := fun k x => k ^^^ x } 12345
    (by decide +kernel) exBeta exB exBetas 1 2
  exact ⟨d, k0, k1, hd, h1, (h2 k1 (Or.inr rfl)).1⟩

/-- C18: the two keys differ only in the seed (the raw random block) and the party. -/
theorem C18_keys_differ_only_in_seed (fp : FpEnv) (params : List DpfParameters) (T : Nat → Ty)
    (d : Dpf) (hs : Setup fp params T d) (env : Env) (alpha : U128) (beta : List Value)
    (b : (h : Nat) → (T h).den) (hb : BetasRepresent params T beta b) (seed0 seed1 : U128)
    (halpha : alpha.toNat < 2 ^ lastLogSize params) :
    ∃ cws last, d.generateKeysIncremental env alpha beta seed0 seed1 =
      ok (⟨some seed0, cws, 0, last⟩, ⟨some seed1, cws, 1, last⟩) := by
  have hc := hs.toCreated
  have wf := hs.wf
  obtain ⟨k0, k1, hk, g⟩ := wf.generateKeys_ok env (hs.betasOk hb) (alpha := alpha)
    (by rw [hc.last_eq]; exact halpha) seed0 seed1
  refine ⟨k0.correctionWords, k0.lastLevelValueCorrection, ?_⟩
  rw [hk]
  obtain ⟨a, b, c, e⟩ := k0
  obtain ⟨a', b', c', e'⟩ := k1
  have h1 := g.seed0
  have h2 := g.seed1
  have h3 := g.party0
  have h4 := g.party1
  have h5 := g.cws
  have h6 := g.last
  simp only at h1 h2 h3 h4 h5 h6
  subst h1 h2 h3 h4 h5 h6
  rfl

/-- C18 on the example. -/
example (env : Env) : ∃ d cws last, Setup exFp exParams exT d ∧ d.generateKeysIncremental env 12345 exBeta 1 2 =
    ok (⟨some 1, cws, 0, last⟩, ⟨some 2, cws, 1, last⟩) := by
  obtain ⟨d, hd⟩ := exSetup
  obtain ⟨cws, last, h⟩ := C18_keys_differ_only_in_seed _ _ _ d hd env 12345 exBeta exB exBetas 1 2 (by decide +kernel)
  exact ⟨d, cws, last, hd, h⟩

/-- Number of value correction elements at each tree level, and at the last level. -/
def keyShape (k : DpfKey) : List Nat × Nat :=
  (k.correctionWords.map fun cw => cw.valueCorrection.length, k.lastLevelValueCorrection.length)

/-- C18: the shape of a key does not depend on alpha, beta or the randomness: any two successful key
generations with the same parameters give keys of the same shape. -/
theorem C18_shape_independent (fp : FpEnv) (params : List DpfParameters) (T : Nat → Ty)
    (d : Dpf) (hs : Setup fp params T d) (env env' : Env) (alpha alpha' : U128)
    (beta beta' : List Value) (seed0 seed1 seed0' seed1' : U128) (k0 k1 k0' k1' : DpfKey)
    (hk : d.generateKeysIncremental env alpha beta seed0 seed1 = ok (k0, k1))
    (hk' : d.generateKeysIncremental env' alpha' beta' seed0' seed1' = ok (k0', k1')) :
    keyShape k0 = keyShape k0' ∧ keyShape k1 = keyShape k1' ∧ keyShape k0 = keyShape k1 := by
  have key : ∀ (env : Env) (alpha : U128) (beta : List Value) (s0 s1 : U128) (k0 k1 k : DpfKey),
      d.generateKeysIncremental env alpha beta s0 s1 = ok (k0, k1) → k = k0 ∨ k = k1 →
      keyShape k = ((List.range (d.pv.hierarchyToTree.getLast?.getD 0)).map fun t =>
        match d.pv.treeToHierarchy.lookup t with
        | some h => (T h).helper.elementsPerBlock
        | none => 0, (T (params.length - 1)).helper.elementsPerBlock) := by
    intro env alpha beta s0 s1 k0 k1 k hk hkk
    obtain ⟨ha, b, hb⟩ := hs.of_generateKeys hk
    obtain ⟨a0, a1, h1, h2⟩ := C17_keys_accepted fp params T d hs env alpha ha beta b hb s0 s1
    rw [hk] at h1
    simp only [ok.injEq, Prod.mk.injEq] at h1
    obtain ⟨rfl, rfl⟩ := h1
    obtain ⟨_, _, h3, h4, h5, h6⟩ := h2 k hkk
    unfold keyShape
    rw [h6, h3, Option.getD_some]
    congr 1
    apply List.ext_getElem
    · simp
    · intro t ht ht'
      have hl : t < k.correctionWords.length := by simpa using ht
      have hcw := List.getElem?_eq_getElem hl
      simp only [List.getElem_map, List.getElem_range]
      have wf := hs.wf
      cases hlk : d.pv.treeToHierarchy.lookup t with
      | none =>
        dsimp only
        rw [h5 t _ ?_ hcw]; rfl
        intro hm
        obtain ⟨h, hh, e⟩ := List.getElem_of_mem hm
        have hh' : h < d.n := by rw [← wf.len_tree]; exact hh
        have : d.pv.treeToHierarchy.lookup t = some h := (wf.lookup t h).mpr ⟨hh', by
          rw [Dpf.treeAt, getD_eq_getElem _ _ _ hh, e]⟩
        rw [hlk] at this; exact absurd this (by simp)
      | some h =>
        dsimp only
        obtain ⟨hh, e⟩ := (wf.lookup t h).mp hlk
        have htr := rd_eq_ok.mp (wf.tree_ok hh)
        rw [e] at htr
        refine h4 h t _ ?_ htr hcw
        rw [← hs.toCreated.n_eq]
        have : h ≠ d.n - 1 := by
          rintro rfl
          rw [List.getLast?_eq_getElem?, wf.len_tree, htr] at h3
          simp only [Option.some.injEq] at h3
          omega
        omega
  have e1 := key _ _ _ _ _ _ _ k0 hk (Or.inl rfl)
  have e2 := key _ _ _ _ _ _ _ k1 hk (Or.inr rfl)
  have e3 := key _ _ _ _ _ _ _ k0' hk' (Or.inl rfl)
  have e4 := key _ _ _ _ _ _ _ k1' hk' (Or.inr rfl)
  exact ⟨e1.trans e3.symm, e2.trans e4.symm, e1.trans e2.symm⟩

/-- C18 on the example: keys for two different alphas and seeds. -/
example : ∃ d k0 k1 k0' k1', Setup exFp exParams exT d ∧
    d.generateKeysIncremental { aes := fun k x => k ^^^ x } 12345 exBeta 1 2 = ok (k0, k1) ∧
    d.generateKeysIncremental { aes := fun k x => k + x } 7 exBeta 3 4 = ok (k0', k1') ∧
    keyShape k0 = keyShape k1' := by
  obtain ⟨d, hd⟩ := exSetup
  obtain ⟨k0, k1, h1, _⟩ := C17_keys_accepted _ _ _ d hd { aes := fun k x => k ^^^ x } 12345
    (by decide +kernel) exBeta exB exBetas 1 2
  obtain ⟨k0', k1', h1', _⟩ := C17_keys_accepted _ _ _ d hd { aes := fun k x => k + x } 7
    (by decide +kernel) exBeta exB exBetas 3 4
  have := C18_shape_independent _ _ _ d hd _ _ _ _ _ _ _ _ _ _ _ _ _ _ h1 h1'
  exact ⟨d, k0, k1, k0', k1', hd, h1, h1', this.2.2.trans this.2.1⟩

/-! ## C19 -/

/-- C19, first part, for every created DPF (types registered or not): a wrong number of messages, a
message that does not match its level's type or an alpha outside the last domain gives
INVALID_ARGUMENT. -/
theorem C19_rejects (fp : FpEnv) (params : List DpfParameters) (d : Dpf) (hc : Created fp params d)
    (env : Env) (alpha : U128) (beta : List Value) (seed0 seed1 : U128)
    (h : beta.length ≠ params.length ∨
      (∃ (h : Nat) (p : DpfParameters) (t : ValueType) (v : Value), params[h]? = some p ∧ 
        p.valueType = some t ∧ beta[h]? = some v ∧ ¬ Matches t v) ∨
      2 ^ lastLogSize params ≤ alpha.toNat) :
    d.generateKeysIncremental env alpha beta seed0 seed1 = err .invalidArgument := by
  obtain ⟨h1, h2⟩ := hc.wf.checkKeyGenArgs_cases (fun i p hp => hc.validType hp) alpha beta
  have hne : d.checkKeyGenArgs alpha beta ≠ ok () := by
    intro e
    obtain ⟨a, b, c⟩ := h2 e
    rw [hc.n_eq] at a
    rw [hc.last_eq] at c
    rcases h with h | ⟨h, p, t, v, hp, ht, hv, hn⟩ | h
    · exact h a
    · refine hn ?_
      have hp' : d.pv.parameters[h]? = some (withDefaultSecurity p) := by
        rw [hc.params, List.getElem?_map, hp]; rfl
      have := b h _ v hp' hv
      rwa [DpfParameters.vt, withDefaultSecurity_vt, ht] at this
    · omega
  have he : d.checkKeyGenArgs alpha beta = err .invalidArgument := by
    rcases h1 with ⟨_, e⟩ | e
    · exact absurd e hne
    · exact e
  unfold Dpf.generateKeysIncremental
  rw [he]; rfl

/-- C19, all types registered: keys are returned iff the messages hold values of the types, one for each
level, and alpha is in the last domain; otherwise INVALID_ARGUMENT. -/
theorem C19_registered (fp : FpEnv) (params : List DpfParameters) (T : Nat → Ty) (d : Dpf)
    (hs : Setup fp params T d) (env : Env) (alpha : U128) (beta : List Value) (seed0 seed1 : U128) :
    ((∃ k0 k1, d.generateKeysIncremental env alpha beta seed0 seed1 = ok (k0, k1)) ↔
      alpha.toNat < 2 ^ lastLogSize params ∧ ∃ b, BetasRepresent params T beta b) ∧
    (d.generateKeysIncremental env alpha beta seed0 seed1 = err .invalidArgument ↔
      ¬ (alpha.toNat < 2 ^ lastLogSize params ∧ ∃ b, BetasRepresent params T beta b)) := by
  have hc := hs.toCreated
  have wf := hs.wf
  have himp : (alpha.toNat < 2 ^ lastLogSize params ∧ ∃ b, BetasRepresent params T beta b) →
      ∃ k0 k1, d.generateKeysIncremental env alpha beta seed0 seed1 = ok (k0, k1) := by
    rintro ⟨ha, b, hb⟩
    obtain ⟨k0, k1, h, _⟩ := wf.generateKeys_ok env (hs.betasOk hb) (alpha := alpha)
      (by rw [hc.last_eq]; exact ha) seed0 seed1
    exact ⟨k0, k1, h⟩
  have hinv : (∃ k0 k1, d.generateKeysIncremental env alpha beta seed0 seed1 = ok (k0, k1)) ∨
      d.generateKeysIncremental env alpha beta seed0 seed1 = err .invalidArgument := by
    obtain ⟨h1, h2⟩ := wf.checkKeyGenArgs_cases (fun i p hp => hc.validType hp) alpha beta
    rcases h1 with ⟨_, h1⟩ | h1
    · obtain ⟨hl, hm, ha⟩ := h2 h1
      by_cases e : ∃ h v, beta[h]? = some v ∧ ∀ x, (T h).helper.fromValue v ≠ ok x
      · obtain ⟨h, v, hv, e⟩ := e
        exact Or.inr (wf.generateKeys_invalid env seed0 seed1 (fun h hh => hs.typedAt hh)
          (fun h hh => hs.registered hh) h1 hl hv e)
      · left
        apply himp
        rw [hc.last_eq] at ha
        refine ⟨ha, ?_⟩
        have hrep : ∀ h v, beta[h]? = some v → ∃ x, Represents (T h) v x := by
          intro h v hv
          have hh : h < d.n := by rw [← hl]; exact (List.getElem?_eq_some_iff.mp hv).1
          obtain ⟨p, _, hp⟩ := wf.param_ok hh
          have hmv := hm h p v hp hv
          rw [← validateValue_iff _ (hc.validType hp), (hs.typedAt hh).vt p hp] at hmv
          by_cases e' : ∃ x, (T h).helper.fromValue v = ok x
          · obtain ⟨x, e'⟩ := e'
            exact ⟨x, ((T h).represents_iff v x).mpr ⟨hmv, e'⟩⟩
          · exact absurd ⟨h, v, hv, fun x hx => e' ⟨x, hx⟩⟩ e
        exact BetasRepresent.of_forall (by rw [hl, hc.n_eq]) hrep
    · right
      unfold Dpf.generateKeysIncremental
      rw [h1]; rfl
  have hmpr := fun (h : ∃ k0 k1, d.generateKeysIncremental env alpha beta seed0 seed1 = ok (k0, k1)) =>
    (let ⟨_, _, hk⟩ := h; hs.of_generateKeys hk)
  refine ⟨⟨hmpr, himp⟩, ?_, ?_⟩
  · intro h hv
    obtain ⟨k0, k1, hk⟩ := himp hv
    rw [hk] at h; exact absurd h (by simp)
  · intro h
    rcases hinv with hk | hk
    · exact absurd (hmpr hk) h
    · exact hk

/-- C19, last part: if the arguments are in order but the type of some level is not registered, the
result is FAILED_PRECONDITION. Missing: messages with an unset 128-bit integer, which pass validation
without holding a value; for those C19 does not hold as stated (`C19_unset_integer_refuted`). -/
theorem C19_unregistered_partial (fp : FpEnv) (params : List DpfParameters) (T : Nat → Ty) (d0 : Dpf)
    (Ts : List Ty) (hd : Dpf.createIncremental fp params = ok d0)
    (types : ∀ h p, params[h]? = some p → p.valueType = some (T h).helper.toValueType)
    (bytes : ∀ h k, d0.blocksNeeded[h]? = some k → (T h).bytesRead ≤ 16 * k)
    (env : Env) (alpha : U128) (halpha : alpha.toNat < 2 ^ lastLogSize params) (beta : List Value)
    (b : (h : Nat) → (T h).den) (hb : BetasRepresent params T beta b) (seed0 seed1 : U128) (h0 : Nat)
    (hh0 : h0 < params.length) (hu : ∀ w, T h0 ≠ .uint w)
    (hn : ∀ T' ∈ Ts, T'.helper.toValueType ≠ (T h0).helper.toValueType) :
    (d0.registerAll Ts).generateKeysIncremental env alpha beta seed0 seed1 =
      err .failedPrecondition := by
  have hc : Created fp params (d0.registerAll Ts) := ⟨d0, Ts, hd, rfl⟩
  have hbytes : ∀ (h k : Nat), (d0.registerAll Ts).blocksNeeded[h]? = some k →
      (T h).bytesRead ≤ 16 * k := by rw [(d0.registerAll_pv Ts).2]; exact bytes
  have hkeys := fun vt => d0.registerAll_keys Ts vt
  generalize d0.registerAll Ts = d at hc hbytes hkeys
  have wf := hc.wf
  have hl : beta.length = d.n := by rw [hb.1, hc.n_eq]
  have htyped : ∀ h, h < d.n → d.TypedAt h (T h) := fun h hh => hc.typedAt types hbytes hh
  have hchk : d.checkKeyGenArgs alpha beta = ok () := by
    refine wf.checkKeyGenArgs_ok (by rw [hc.last_eq]; exact halpha) hl ?_
    intro h p v hp hv
    rw [(htyped h (List.getElem?_eq_some_iff.mp hp).1).vt p hp]
    exact (T h).validateValue_of_represents v (b h) (hb.2 h v hv)
  rw [← hc.n_eq] at hh0
  have hnone : ∀ vt : ValueType, vt ∉ d.registry.map (·.1) → d.registry.lookup vt = none := by
    intro vt hvt
    cases hlk : d.registry.lookup vt with
    | none => rfl
    | some f => exact absurd (mem_keys_of_lookup hlk) hvt
  have hun : (T h0).helper.toValueType ∉ d.registry.map (·.1) := by
    rw [hkeys]
    rintro (hm | ⟨T', hT', e⟩)
    · obtain ⟨_, _, hr⟩ := createIncremental_spec hd
      rw [hr] at hm
      simp only [List.map_cons, List.map_nil, List.mem_cons, List.not_mem_nil, or_false] at hm
      have : ∀ t : Ty, (∀ w, t ≠ .uint w) → ∀ i, t.helper.toValueType ≠ .integer i := by
        intro t ht i
        cases t with
        | uint w => exact absurd rfl (ht w)
        | _ => intro e; cases e
      rcases hm with e | e | e | e | e <;> exact this _ hu _ e
    · exact hn T' hT' e.symm
  obtain ⟨m, hm, hmu, hlt⟩ := Dpf.exists_least (P := fun h => (T h).helper.toValueType ∉ d.registry.map (·.1)) hun
  refine wf.generateKeys_err env seed0 seed1 hchk hl (h0 := m) (by omega) ?_ ?_
  · intro h hh
    refine wf.levelOutcome_good env (by omega) (htyped h (by omega)) ?_ ?_
    · exact hc.registryOk.of_mem (Classical.not_not.mp (hlt h hh))
    · intro v hv
      exact ⟨b h, (T h).fromValue_of_represents v (b h) (hb.2 h v hv)⟩
  · obtain ⟨p, _, hp⟩ := wf.param_ok (show m < d.n by omega)
    refine wf.levelOutcome_unregistered env beta (by omega) hp ?_
    rw [(htyped m (by omega)).vt p hp]
    exact hnone _ hmu

/-- C19 on the example: the third level's type is not registered. -/
example : ∃ d0, Dpf.createIncremental exFp exParams = ok d0 ∧
    (d0.registerAll [exT 1]).generateKeysIncremental { aes := fun k x => k ^^^ x } 12345 exBeta 1 2 =
      err .failedPrecondition := by
  obtain ⟨d, hs⟩ := exSetup
  obtain ⟨d0, Ts, hd, h2, _⟩ := hs.created
  refine ⟨d0, hd, ?_⟩
  refine C19_unregistered_partial exFp exParams exT d0 [exT 1] hd hs.types ?_ _ _ (by decide +kernel) exBeta exB
    exBetas 1 2 2 (by decide) (fun w => by simp [exT]) ?_
  · intro h k hk
    refine hs.bytes h k ?_
    rw [h2, (d0.registerAll_pv Ts).2]; exact hk
  · intro T' hT'
    simp only [List.mem_singleton] at hT'
    subst hT'
    intro e; cases e

/-- C19 on the example: a number that does not fit, a missing message, alpha outside the domain of a DPF
on 2^3 points. -/
example : ∃ d, Created exFp exParams d ∧
    d.generateKeysIncremental { aes := fun k x => k ^^^ x } 12345 (.integer (.u64 256) :: exBeta.drop 1) 1 2 =
      err .invalidArgument ∧
    d.generateKeysIncremental { aes := fun k x => k ^^^ x } 12345 (exBeta.drop 1) 1 2 = err .invalidArgument := by
  obtain ⟨d, hs⟩ := exSetup
  refine ⟨d, hs.toCreated, ?_, ?_⟩
  · refine C19_rejects _ _ _ hs.toCreated _ _ _ _ _ (Or.inr (Or.inl ⟨0, _, _, _, rfl, rfl, rfl, ?_⟩))
    rintro ⟨i, hi, h | ⟨n, hn, hlt⟩⟩
    · exact absurd h (by decide)
    · simp only [Value.integer.injEq] at hi
      subst hi
      simp only [intMsg, Option.some.injEq] at hn
      subst hn
      exact absurd hlt (by decide)
  · exact C19_rejects _ _ _ hs.toCreated _ _ _ _ _ (Or.inl (by decide))

/-- The combination C19 does not describe correctly: an unset 128-bit integer passes validation, so with an
unregistered type on an earlier level the outcome is FAILED_PRECONDITION, and with all types
registered it is INVALID_ARGUMENT although the message validates. Here: one level of type uint128,
message with an unset integer. -/
theorem C19_unset_integer_refuted : ∃ (params : List DpfParameters) (d : Dpf) (v : Value),
    Created exFp params d ∧ Matches (.integer 128) v ∧
    params.map (·.valueType) = [some (.integer 128)] ∧
    (∀ env alpha seed0 seed1, d.generateKeysIncremental env alpha [v] seed0 seed1 = err .invalidArgument) := by
  have h : (match Dpf.createIncremental exFp [⟨5, some (.integer 128), .val 0⟩] with
    | .ok _ => true
    | _ => false) = true := by decide +kernel
  split at h
  · rename_i d hd
    have hs : Setup exFp [⟨5, some (.integer 128), .val 0⟩] (fun _ => .uint .w128) (d.registerAll []) := by
      refine Setup.of_flat hd ?_ (fun h _ => Or.inr ⟨_, rfl⟩) (fun h _ => Or.inl rfl)
      intro h p hp
      match h, hp with
      | 0, hp => simp at hp; rw [← hp]; rfl
      | h + 1, hp => simp at hp
    refine ⟨_, _, .integer .notSet, hs.toCreated, ⟨_, rfl, Or.inl rfl⟩, rfl, ?_⟩
    intro env alpha seed0 seed1
    refine (C19_registered _ _ _ _ hs env alpha _ seed0 seed1).2.mpr ?_
    rintro ⟨_, b, _, hb⟩
    obtain ⟨i, hi, h2⟩ := hb 0 _ rfl
    simp only [Value.integer.injEq] at hi
    subst hi
    simp [intMsg] at h2
  · simp at h

/-- C26 on the example: the tuple at the second level gets two blocks, whatever they are. -/
example (d : Dpf) (hd : Dpf.createIncremental exFp exParams = ok d) (hk : d.blocksNeeded = [1, 2, 1]) (a b : U128) :
    ∃ xs, (exT 1).helper.convertBytesToArrayOf (blocksBytes [a, b]) = ok xs ∧ xs.length = 1 :=
  C26_bytes_suffice_partial exFp exParams d hd 1 _ rfl (exT 1) rfl (Or.inl rfl) 2 (by rw [hk]; rfl) [a, b] rfl

end Verif
