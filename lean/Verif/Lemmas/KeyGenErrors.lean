import Verif.Lemmas.Setup
/-! When key generation fails, and how. -/
namespace Verif
open Res Spec

theorem foldRes_range_err {σ : Type} {f : σ → Nat → Res σ} (inv : Nat → σ → Prop) {n m : Nat}
    {s : σ} {c : Code} (hm : m < n) (h0 : inv 0 s)
    (hs : ∀ i s, i < m → inv i s → ∃ s', f s i = ok s' ∧ inv (i + 1) s')
    (he : ∀ s, inv m s → f s m = err c) :
    foldRes f s (List.range n) = err c := by
  obtain ⟨s', h1, h2⟩ := foldRes_range_inv inv h0 hs
  have e : n = m + ((n - m - 1) + 1) := by omega
  rw [e, List.range_add, foldRes_append, h1, bind_ok, List.range_succ_eq_map]
  simp only [List.map_cons, Nat.add_zero]
  rw [foldRes_cons, he s' h2]; rfl

theorem OkOrInvalid.mapRes_unit {α β : Type} {f : α → Res β} {l : List α}
    (h : ∀ a ∈ l, OkOrInvalid (f a)) : OkOrInvalid (mapRes f l) := by
  induction l with
  | nil => exact .ok _
  | cons a l ih =>
    rw [mapRes_cons]
    exact (h a (by simp)).bind fun _ _ => (ih fun a ha => h a (by simp [ha])).bind fun _ _ => .ok _

namespace Dpf
variable {d : Dpf}

theorem checkKeyGenArgs_unfold (alpha : U128) (beta : List Value) : d.checkKeyGenArgs alpha beta =
    (failIf (beta.length ≠ d.pv.parameters.length) .invalidArgument >>= fun _ =>
     mapRes (fun i => rd beta i >>= fun v => d.validateBeta i v)
      (List.range d.pv.parameters.length) >>= fun _ =>
     d.lastLog >>= fun last =>
     if last < 128 then shl128 1 last >>= fun bound => failIf (alpha ≥ bound) .invalidArgument
     else ok ()) := rfl

theorem bound_iff {n : Nat} (h : n < 128) (alpha : U128) :
    alpha ≥ (1 : U128) <<< n ↔ 2 ^ n ≤ alpha.toNat := by
  have h1 : 2 ^ n < 2 ^ 128 := Nat.pow_lt_pow_right (by decide) h
  rw [ge_iff_le, BitVec.le_def, BitVec.toNat_shiftLeft, Nat.shiftLeft_eq]
  show (1 % 2 ^ 128 * 2 ^ n % 2 ^ 128 ≤ alpha.toNat) ↔ _
  rw [Nat.mod_eq_of_lt (by decide : 1 < 2 ^ 128), Nat.one_mul, Nat.mod_eq_of_lt h1]

theorem WF.checkKeyGenArgs_cases (wf : d.WF)
    (hv : ∀ (i : Nat) (p : DpfParameters), d.pv.parameters[i]? = some p → ValidType p.vt)
    (alpha : U128) (beta : List Value) :
    OkOrInvalid (d.checkKeyGenArgs alpha beta) ∧
    (d.checkKeyGenArgs alpha beta = ok () → beta.length = d.n ∧
      (∀ (h : Nat) (p : DpfParameters) (v : Value), d.pv.parameters[h]? = some p →
        beta[h]? = some v → Matches p.vt v) ∧ alpha.toNat < 2 ^ d.logAt (d.n - 1)) := by
  rw [checkKeyGenArgs_unfold]
  have hlog := wf.log_le (d.n - 1)
  constructor
  · refine (OkOrInvalid.failIf _).bind fun _ h1 => ?_
    rw [failIf_eq_ok] at h1
    have h1' : beta.length = d.pv.parameters.length := by omega
    refine OkOrInvalid.bind (OkOrInvalid.mapRes_unit ?_) fun _ _ => ?_
    · intro i hi
      simp only [List.mem_range] at hi
      obtain ⟨p, hp, hp'⟩ := wf.param_ok (h := i) hi
      rw [rd_lt (by omega), bind_ok, validateBeta, hp, bind_ok]
      exact validateValue_cases _ (hv i p hp') _
    · rw [wf.lastLog_ok, bind_ok]
      split
      · rw [shl128_ok (by omega), bind_ok]; exact .failIf _
      · exact .ok _
  · intro h
    obtain ⟨_, h1, h⟩ := bind_eq_ok.mp h
    obtain ⟨us, h2, h⟩ := bind_eq_ok.mp h
    rw [failIf_eq_ok] at h1
    have h1' : beta.length = d.pv.parameters.length := by omega
    refine ⟨h1', ?_, ?_⟩
    · intro i p v hp hv'
      have hi : i < d.pv.parameters.length := (List.getElem?_eq_some_iff.mp hp).1
      have := mapRes_unit_eq_ok.mp ⟨us, h2⟩ i (by simpa using hi)
      rw [rd_eq_ok.mpr hv', bind_ok, validateBeta, Dpf.param, rd_eq_ok.mpr hp, bind_ok,
        validateValue_iff _ (hv i p hp)] at this
      exact this
    · rw [wf.lastLog_ok, bind_ok] at h
      split at h
      · rw [shl128_ok (by omega), bind_ok, failIf_eq_ok, bound_iff (by omega)] at h
        omega
      · have : d.logAt (d.n - 1) = 128 := by omega
        rw [this]; exact alpha.isLt

/-- How the value correction of level `h` turns out, whatever the seeds. -/
def LevelOutcome (d : Dpf) (env : Env) (beta : List Value) (h : Nat) (o : Option Code) : Prop :=
  ∀ v, beta[h]? = some v → ∀ seeds a inv,
    match o with
    | none => ∃ vs, d.computeValueCorrection env h seeds a v inv = ok vs
    | some c => d.computeValueCorrection env h seeds a v inv = err c

theorem WF.valueCorrectionAt_some (wf : d.WF) (env : Env) {beta : List Value}
    (hl : beta.length = d.n) (alpha : U128) {t h : Nat} (hh : h < d.n) (ht : d.treeAt h = t)
    (st : GenState) : ∃ a, d.valueCorrectionAt env (t + 1) alpha beta st =
      d.computeValueCorrection env h st.seeds a (beta[h]'(by omega)) st.control.2 := by
  unfold valueCorrectionAt
  rw [Nat.add_sub_cancel, (wf.lookup t h).mpr ⟨hh, ht⟩]
  obtain ⟨p, hp, hp'⟩ := wf.param_ok hh
  obtain ⟨x, hx, _⟩ := wf.alphaPrefix_ok hh alpha
  refine ⟨x, ?_⟩
  dsimp only
  rw [hp, bind_ok, wf.lastLog_ok, bind_ok, wf.log_eq h p hp']
  split at hx
  · rename_i hc'
    rw [if_pos hc', hx, bind_ok, rd_lt (by omega), bind_ok]
  · rename_i hc'
    simp only [ok.injEq] at hx
    subst hx
    rw [if_neg hc', bind_ok, rd_lt (by omega), bind_ok]

theorem WF.valueCorrectionAt_none (wf : d.WF) (env : Env) (beta : List Value) (alpha : U128)
    {t : Nat} (ht : ∀ h, h < d.n → d.treeAt h ≠ t) (st : GenState) :
    d.valueCorrectionAt env (t + 1) alpha beta st = ok [] := by
  unfold valueCorrectionAt
  rw [Nat.add_sub_cancel]
  cases hl : d.pv.treeToHierarchy.lookup t with
  | none => rfl
  | some h =>
    obtain ⟨h1, h2⟩ := (wf.lookup t h).mp hl
    exact absurd h2 (ht h h1)

/-- Key generation stops with the failure of the first failing level. -/
theorem WF.generateKeys_err (wf : d.WF) (env : Env) {alpha : U128} {beta : List Value}
    (seed0 seed1 : U128) (hchk : d.checkKeyGenArgs alpha beta = ok ()) (hl : beta.length = d.n)
    {h0 : Nat} (hh0 : h0 < d.n) (hgood : ∀ h, h < h0 → d.LevelOutcome env beta h none) {c : Code}
    (hbad : d.LevelOutcome env beta h0 (some c)) :
    d.generateKeysIncremental env alpha beta seed0 seed1 = err c := by
  have hpos := wf.pos
  have hneed := wf.needed
  have htl := wf.tree_le (d.n - 1)
  have hstep : ∀ (t : Nat) (s : GenState), t < d.treeAt h0 →
      (∃ n0 n1 cws, s = stOf n0 n1 cws) →
      ∃ s', d.generateNext env alpha beta s (t + 1) = ok s' ∧ ∃ n0 n1 cws, s' = stOf n0 n1 cws := by
    rintro t s ht ⟨n0, n1, cws, rfl⟩
    have := wf.tree_lt_needed hh0
    rw [wf.generateNext_eq env alpha beta n0 n1 cws (t := t) (by omega)]
    have : ∃ vc, d.valueCorrectionAt env (t + 1) alpha beta (stOf n0 n1 []) = ok vc := by
      by_cases hex : ∃ h, h < d.n ∧ d.treeAt h = t
      · obtain ⟨h, hh, hth⟩ := hex
        obtain ⟨a, ha⟩ := wf.valueCorrectionAt_some env hl alpha hh hth (stOf n0 n1 [])
        have hlt : h < h0 := by
          rcases Nat.lt_or_ge h h0 with h1 | h1
          · exact h1
          · rcases Nat.eq_or_lt_of_le h1 with h2 | h2
            · subst h2; omega
            · have := wf.tree_asc h0 h h2 hh; omega
        have := hgood h hlt _ (List.getElem?_eq_getElem (by omega)) (stOf n0 n1 []).seeds a
          (stOf n0 n1 []).control.2
        rw [ha]; exact this
      · exact ⟨[], wf.valueCorrectionAt_none env beta alpha (fun h hh ht => hex ⟨h, hh, ht⟩) _⟩
    obtain ⟨vc, hvc⟩ := this
    rw [hvc]
    exact ⟨_, rfl, _, _, _, rfl⟩
  have hinit : ∃ n0 n1 cws, (⟨(seed0, seed1), (false, true), [], []⟩ : GenState) = stOf n0 n1 cws :=
    ⟨⟨seed0, false⟩, ⟨seed1, true⟩, [], rfl⟩
  unfold generateKeysIncremental
  rw [hchk, bind_ok, foldRes_map]
  by_cases hlast : h0 = d.n - 1
  · subst hlast
    obtain ⟨st, hst, _⟩ := foldRes_range_inv
      (f := fun s i => d.generateNext env alpha beta s (i + 1))
      (fun _ s => ∃ n0 n1 cws, s = stOf n0 n1 cws) (n := d.pv.treeLevelsNeeded - 1) hinit
      (fun i s hi => hstep i s (by omega))
    rw [hst, bind_ok]
    dsimp only
    rw [rd_lt (by omega), bind_ok]
    have := hbad (beta[beta.length - 1]'(by omega)) (by
      rw [← hl]; exact List.getElem?_eq_getElem (by omega)) st.seeds alpha st.control.2
    dsimp only at this
    show (d.computeValueCorrection env (d.n - 1) _ _ _ _ >>= _) = _
    rw [this]; rfl
  · have hlt : d.treeAt h0 < d.pv.treeLevelsNeeded - 1 := by
      have := wf.tree_lt_needed' (h := h0) (by omega); omega
    rw [foldRes_range_err (f := fun s i => d.generateNext env alpha beta s (i + 1))
      (fun _ s => ∃ n0 n1 cws, s = stOf n0 n1 cws) hlt hinit hstep (c := c)]
    · rfl
    · rintro s ⟨n0, n1, cws, rfl⟩
      rw [wf.generateNext_eq env alpha beta n0 n1 cws (t := d.treeAt h0) (by omega)]
      obtain ⟨a, ha⟩ := wf.valueCorrectionAt_some env hl alpha hh0 rfl (stOf n0 n1 [])
      have := hbad _ (List.getElem?_eq_getElem (by omega)) (stOf n0 n1 []).seeds a
        (stOf n0 n1 []).control.2
      dsimp only at this
      rw [ha, this]; rfl

theorem WF.computeValueCorrection_head (wf : d.WF) (env : Env) {h : Nat} (hh : h < d.n)
    {p : DpfParameters} (hp : d.pv.parameters[h]? = some p) (seeds : U128 × U128) (a : U128)
    (v : Value) (inv : Bool) : ∃ x y i, d.computeValueCorrection env h seeds a v inv =
      (d.getValueCorrectionFunction p >>= fun f => f x y i v inv) := by
  unfold computeValueCorrection
  rw [wf.blocks_ok hh, bind_ok]
  dsimp only
  rw [Aes128FixedKeyHash.evaluate_eq _ _ _ _ _ rfl (fun _ => rfl), bind_ok,
    wf.domainToBlockIndex_ok hh, bind_ok, Dpf.param, rd_eq_ok.mpr hp, bind_ok]
  exact ⟨_, _, _, rfl⟩

theorem WF.levelOutcome_unregistered (wf : d.WF) (env : Env) (beta : List Value) {h : Nat}
    (hh : h < d.n) {p : DpfParameters} (hp : d.pv.parameters[h]? = some p)
    (hr : d.registry.lookup p.vt = none) :
    d.LevelOutcome env beta h (some .failedPrecondition) := by
  intro v _ seeds a inv
  obtain ⟨x, y, i, e⟩ := wf.computeValueCorrection_head env hh hp seeds a v inv
  dsimp only
  rw [e, getValueCorrectionFunction, hr]; rfl

theorem WF.levelOutcome_good (wf : d.WF) (env : Env) {beta : List Value} {h : Nat}
    (hh : h < d.n) {T : Ty} (ht : d.TypedAt h T) (hr : d.Registered T)
    (hb : ∀ v, beta[h]? = some v → ∃ b, T.helper.fromValue v = ok b) :
    d.LevelOutcome env beta h none := by
  intro v hv seeds a inv
  obtain ⟨b, hb⟩ := hb v hv
  exact ⟨_, wf.computeValueCorrection_ok env hh ht hr ⟨seeds.1, false⟩ ⟨seeds.2, inv⟩ a hb⟩

theorem WF.levelOutcome_invalid (wf : d.WF) (env : Env) {beta : List Value} {h : Nat}
    (hh : h < d.n) {T : Ty} (ht : d.TypedAt h T) (hr : d.Registered T)
    (hb : ∀ v, beta[h]? = some v → T.helper.fromValue v = err .invalidArgument) :
    d.LevelOutcome env beta h (some .invalidArgument) := by
  intro v hv seeds a inv
  obtain ⟨p, _, hp⟩ := wf.param_ok hh
  obtain ⟨x, y, i, e⟩ := wf.computeValueCorrection_head env hh hp seeds a v inv
  dsimp only
  rw [e, getValueCorrectionFunction, ht.vt p hp, hr, bind_ok, Helper.computeValueCorrectionFor,
    hb v hv]; rfl

/-- A least number with a decidable-or-not property. -/
theorem exists_least {P : Nat → Prop} {n : Nat} (h : P n) : ∃ m, m ≤ n ∧ P m ∧ ∀ k, k < m → ¬ P k := by
  induction n using Nat.strongRecOn with
  | _ n ih =>
    by_cases e : ∃ k, k < n ∧ P k
    · obtain ⟨k, h1, h2⟩ := e
      obtain ⟨m, h3, h4, h5⟩ := ih k h1 h2
      exact ⟨m, by omega, h4, h5⟩
    · exact ⟨n, Nat.le_refl _, h, fun k hk hp => e ⟨k, hk, hp⟩⟩

/-- All levels registered: success iff the betas are represented, else INVALID_ARGUMENT. -/
theorem WF.generateKeys_invalid (wf : d.WF) (env : Env) {alpha : U128} {beta : List Value}
    (seed0 seed1 : U128) {T : Nat → Ty} (ht : ∀ h, h < d.n → d.TypedAt h (T h))
    (hr : ∀ h, h < d.n → d.Registered (T h))
    (hchk : d.checkKeyGenArgs alpha beta = ok ()) (hl : beta.length = d.n)
    {h0 : Nat} {v0 : Value} (hv0 : beta[h0]? = some v0)
    (hbad : ∀ b, (T h0).helper.fromValue v0 ≠ ok b) :
    d.generateKeysIncremental env alpha beta seed0 seed1 = err .invalidArgument := by
  have hn : h0 < d.n := by rw [← hl]; exact (List.getElem?_eq_some_iff.mp hv0).1
  obtain ⟨m, hm, ⟨v, hv, hm1⟩, hm2⟩ := exists_least (P := fun h => ∃ v, beta[h]? = some v ∧
    ∀ b, (T h).helper.fromValue v ≠ ok b) ⟨v0, hv0, hbad⟩
  have hdec : ∀ h v, beta[h]? = some v → (∃ b, (T h).helper.fromValue v = ok b) ∨
      (T h).helper.fromValue v = err .invalidArgument := fun h v _ => (T h).fromValue_cases v
  refine wf.generateKeys_err env seed0 seed1 hchk hl (h0 := m) (by omega) ?_ ?_
  · intro h hlt
    refine wf.levelOutcome_good env (by omega) (ht h (by omega)) (hr h (by omega)) ?_
    intro w hw
    rcases hdec h w hw with hb | hb
    · exact hb
    · exact absurd ⟨w, hw, by intro b; rw [hb]; simp⟩ (hm2 h hlt)
  · refine wf.levelOutcome_invalid env (by omega) (ht m (by omega)) (hr m (by omega)) ?_
    intro w hw
    rw [hv] at hw
    simp only [Option.some.injEq] at hw
    subst hw
    rcases hdec m v hv with ⟨b, hb⟩ | hb
    · exact absurd hb (hm1 b)
    · exact hb

end Dpf
theorem Spec.BetasRepresent.of_forall {params : List DpfParameters} {T : Nat → Ty} {beta : List Value}
    (hl : beta.length = params.length)
    (hrep : ∀ h v, beta[h]? = some v → ∃ x, Represents (T h) v x) :
    ∃ b, BetasRepresent params T beta b := by
  refine ⟨fun h => match hv : beta[h]? with
    | some v => Classical.choose (hrep h v hv)
    | none => (T h).helper.zero, hl, ?_⟩
  intro h v hv
  dsimp only
  split
  · rename_i w hw
    have e : w = v := by rw [hw] at hv; exact Option.some.inj hv
    subst e
    exact Classical.choose_spec (hrep h w hw)
  · rename_i hn; rw [hn] at hv; exact absurd hv (by simp)

/-- A successful key generation had an alpha in the domain and messages that hold values of the types. -/
theorem Spec.Setup.of_generateKeys {fp : FpEnv} {params : List DpfParameters} {T : Nat → Ty} {d : Dpf}
    (hs : Setup fp params T d) {env : Env} {alpha : U128} {beta : List Value} {seed0 seed1 : U128}
    {r : DpfKey × DpfKey} (hk : d.generateKeysIncremental env alpha beta seed0 seed1 = ok r) :
    alpha.toNat < 2 ^ lastLogSize params ∧ ∃ b, BetasRepresent params T beta b := by
  have hc := hs.toCreated
  have wf := hs.wf
  have hchk : d.checkKeyGenArgs alpha beta = ok () := by
    unfold Dpf.generateKeysIncremental at hk
    obtain ⟨_, h, _⟩ := bind_eq_ok.mp hk
    exact h
  obtain ⟨hl, hm, ha⟩ := (wf.checkKeyGenArgs_cases (fun i p hp => hc.validType hp) alpha beta).2 hchk
  rw [hc.last_eq] at ha
  refine ⟨ha, ?_⟩
  have hrep : ∀ h v, beta[h]? = some v → ∃ x, Represents (T h) v x := by
    intro h v hv
    have hh : h < d.n := by rw [← hl]; exact (List.getElem?_eq_some_iff.mp hv).1
    obtain ⟨p, _, hp⟩ := wf.param_ok hh
    have hvt := (hs.typedAt hh).vt p hp
    have hmv := hm h p v hp hv
    rw [← validateValue_iff _ (hc.validType hp), hvt] at hmv
    by_cases e : ∃ x, (T h).helper.fromValue v = ok x
    · obtain ⟨x, e⟩ := e
      exact ⟨x, ((T h).represents_iff v x).mpr ⟨hmv, e⟩⟩
    · rw [wf.generateKeys_invalid env seed0 seed1 (fun h hh => hs.typedAt hh)
        (fun h hh => hs.registered hh) hchk hl hv (fun b hb => e ⟨b, hb⟩)] at hk
      exact absurd hk (by simp)
  exact BetasRepresent.of_forall (by rw [hl, hc.n_eq]) hrep

end Verif
