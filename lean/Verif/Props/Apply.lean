import Verif.Lemmas.Apply
import Verif.Lemmas.ValueTypes
import Verif.Lemmas.History
import Verif.Props.Evaluation
/-!
# Properties C10 and C11: `EvaluateAndApply`
-/
namespace Verif
open Res Spec

theorem mapRes_zip {α β γ : Type} (f : α → β → Res γ) (l : List α) (m : List β) (a : α) (b : β)
    (h : m.length = l.length) : mapRes (fun j => f (l.getD j a) (m.getD j b)) (List.range l.length) =
      mapRes (fun p : α × β => f p.1 p.2) (l.zip m) := by
  have e : l.zip m = (List.range l.length).map fun j => (l.getD j a, m.getD j b) := by
    apply List.ext_getElem
    · simp; omega
    · intro i h1 h2
      simp only [List.length_zip] at h1
      simp [List.getD, show i < l.length by omega, show i < m.length by omega]
  rw [e, mapRes_map]

theorem Dpf.nodeAt_congr (env : Env) (key : DpfKey) {t x y : Nat} (h : x % 2 ^ t = y % 2 ^ t) :
    Dpf.nodeAt env key t x = Dpf.nodeAt env key t y := by
  unfold Dpf.nodeAt
  apply walk_congr
  intro i hi
  have hi : i < t := by simp at hi; omega
  have e : ∀ z : Nat, z.testBit i = (z % 2 ^ t).testBit i := by
    intro z; rw [Nat.testBit_mod_two_pow]; simp [hi]
  rw [e x, e y, h]

/-- The value at a point depends on the bits inside the domain only. -/
theorem Dpf.WF.share_mod {d : Dpf} (wf : d.WF) (env : Env) (T : Ty) (key : DpfKey) (h : Nat)
    (corr : List T.den) {x y : Nat} (hxy : x % 2 ^ d.logAt h = y % 2 ^ d.logAt h) :
    d.share env T key h corr x = d.share env T key h corr y := by
  have htl := wf.tree_le h
  have e1 : d.logAt h = d.treeAt h + d.gapAt h := by unfold Dpf.gapAt; omega
  have key1 : ∀ z : Nat, z % 2 ^ d.gapAt h = z % 2 ^ d.logAt h % 2 ^ d.gapAt h := by
    intro z
    rw [Nat.mod_mod_of_dvd]
    exact Nat.pow_dvd_pow 2 (by omega)
  have key2 : ∀ z : Nat, z / 2 ^ d.gapAt h % 2 ^ d.treeAt h = z % 2 ^ d.logAt h / 2 ^ d.gapAt h := by
    intro z
    rw [e1, Nat.add_comm, Nat.pow_add, Nat.mod_mul_right_div_self]
  unfold Dpf.share
  dsimp only
  rw [key1 x, key1 y, hxy, Dpf.nodeAt_congr env key (x := x / 2 ^ d.gapAt h) (y := y / 2 ^ d.gapAt h)
    (by rw [key2, key2, hxy])]

/-! ## C10 -/

/-- Values `EvaluateAt` returns for each key at its own point, shifted to level `h`. -/
theorem Dpf.WF.applyShares_eq {fp : FpEnv} {params : List DpfParameters} {T : Ty} {d : Dpf}
    (hs : Setup fp params (fun _ => T) d) (env : Env) {keys : List DpfKey} {points : List U128}
    (hlen : points.length = keys.length) (hk : ∀ k ∈ keys, WellFormedKey d k) (r : Nat)
    (hp : ∀ x ∈ points, x.toNat < 2 ^ (lastLogSize params + r)) {h : Nat} (hh : h < params.length) :
    d.applyShares env T keys points r h = mapRes (fun kx : DpfKey × U128 => evaluateOne d env T kx.1 h
      (kx.2 >>> (r + lastLogSize params - logSize params h))) (keys.zip points) := by
  have wf := hs.wf
  have hcr := hs.toCreated
  have hn : d.n = params.length := hcr.n_eq
  have hlast : d.logAt (d.n - 1) = lastLogSize params := by
    rw [hcr.logAt_eq, hn]; rfl
  have hh' : h < d.n := by omega
  rw [← mapRes_zip (fun key (x : U128) => evaluateOne d env T key h
    (x >>> (r + lastLogSize params - logSize params h))) keys points DpfKey.default 0 hlen]
  unfold Dpf.applyShares
  apply mapRes_congr
  intro j hj
  simp only [List.mem_range] at hj
  have hkj : keys.getD j DpfKey.default ∈ keys := by simp [List.getD, hj]
  have hpj : points.getD j 0 ∈ points := by simp [List.getD, show j < points.length by omega]
  have hll := wf.log_le_last hh'
  unfold evaluateOne
  rw [wf.evaluateAt_ok env ((wf.wellFormedKey_iff _).mp (hk _ hkj)) hh' (hs.typedAt hh')
    (by
      intro x hx
      simp only [List.mem_singleton] at hx
      subst hx
      rw [Dpf.shr_toNat, hcr.logAt_eq]
      apply Nat.div_lt_of_lt_mul
      rw [← Nat.pow_add]
      have := hp _ hpj
      rw [hlast, hcr.logAt_eq] at hll
      rwa [show r + lastLogSize params - logSize params h + logSize params h = lastLogSize params + r by
        omega]),
    if_neg (by simp), hlast, hcr.logAt_eq]
  simp only [List.map_cons, List.map_nil, Dpf.shr_toNat]
  cases d.getValueCorrectionAsArray T.helper (keys.getD j DpfKey.default) h <;> rfl

theorem Spec.Created.lastLog {fp : FpEnv} {params : List DpfParameters} {d : Dpf} (hs : Created fp params d) :
    d.logAt (d.n - 1) = lastLogSize params := by
  rw [hs.logAt_eq, hs.n_eq]; rfl

/-- C10: on well-formed keys and points inside the domain (after the right shift `r`),
`EvaluateAndApply` calls the callback, for one level after the other from level 0, with the values
`EvaluateAt` returns for each key at its own point shifted to the level; it stops after the first
`false` and returns OK. The number of correction words between two levels is an `int` in the code, and so is
the right shift with the size of the domain. Missing: more keys, for which this is false (`C10_tooMany`,
`C10_wrapped`, `C10_refuted`), and shifts next to the largest `int` (`C10_shift`). -/
theorem C10_apply_partial (fp : FpEnv) (params : List DpfParameters) (T : Ty) (d : Dpf)
    (hs : Setup fp params (fun _ => T) d) (env : Env) (keys : List DpfKey) (points : List U128)
    (hlen : points.length = keys.length) (hk : ∀ k ∈ keys, WellFormedKey d k) (r : Nat)
    (hp : ∀ x ∈ points, x.toNat < 2 ^ (lastLogSize params + r)) (hr : r + lastLogSize params < 2 ^ 31)
    (hmany : ∀ h, h < params.length → stepLevels d h * keys.length < 2 ^ 31) {σ : Type}
    (op : σ → List T.den → Bool × σ) (s : σ) :
    d.evaluateAndApply env T.helper keys points op s (r : Int) =
      runCallback op ((List.range params.length).map fun h =>
        mapRes (fun kx : DpfKey × U128 => evaluateOne d env T kx.1 h
          (kx.2 >>> (r + lastLogSize params - logSize params h))) (keys.zip points)) s := by
  have wf := hs.wf
  have hcr := hs.toCreated
  have hn : d.n = params.length := hcr.n_eq
  rw [wf.evaluateAndApply_ok env hlen (fun k hkk => (wf.wellFormedKey_iff k).mp (hk k hkk))
    (fun h hh => hs.typedAt hh) r (by rw [hcr.lastLog]; exact hr) (fun h hh => hmany h (by omega)) op s, hn]
  congr 1
  apply List.map_congr_left
  intro h hh
  exact Dpf.WF.applyShares_eq hs env hlen hk r hp (List.mem_range.mp hh)

/-- The steps of any DPF with a domain of at most `2 ^ lastLogSize params` elements are short enough for this many
keys. -/
theorem C10_keys (fp : FpEnv) (params : List DpfParameters) (d : Dpf) (hd : Created fp params d) (K : Nat)
    (hK : lastLogSize params * K < 2 ^ 31) : ∀ h, h < params.length → stepLevels d h * K < 2 ^ 31 := by
  intro h hh
  refine Nat.lt_of_le_of_lt (Nat.mul_le_mul_right _ ?_) hK
  have h1 := hd.wf.tree_le h
  have h2 := hd.wf.log_le_last (h := h) (by rw [hd.n_eq]; exact hh)
  rw [hd.lastLog] at h2
  unfold stepLevels
  have e : d.treeAt h = d.pv.hierarchyToTree.getD h 0 := rfl
  omega

/-- Two million keys of the example fit. -/
example : ∀ h, h < exParams8.length → stepLevels exDpf h * 2000000 < 2 ^ 31 :=
  C10_keys exFp exParams8 exDpf exDpf_setup.toCreated 2000000 (by decide)

/-- C10, too many keys: at the first level with 2^31 or more correction words, the call ends with INVALID_ARGUMENT
(unless the callback ended it before), if this number modulo 2^32 is not the number of tree levels of the step. -/
theorem C10_tooMany (fp : FpEnv) (params : List DpfParameters) (T : Ty) (d : Dpf)
    (hs : Setup fp params (fun _ => T) d) (env : Env) (keys : List DpfKey) (points : List U128)
    (hlen : points.length = keys.length) (hk : ∀ k ∈ keys, WellFormedKey d k) (r : Nat)
    (hp : ∀ x ∈ points, x.toNat < 2 ^ (lastLogSize params + r)) (hr : r + lastLogSize params < 2 ^ 31)
    (h0 : Nat) (hh0 : h0 < params.length)
    (hfew : ∀ h, h < h0 → stepLevels d h * keys.length < 2 ^ 31)
    (hmany : 2 ^ 31 ≤ stepLevels d h0 * keys.length)
    (hmod : stepLevels d h0 * keys.length % 2 ^ 32 ≠ stepLevels d h0) {σ : Type}
    (op : σ → List T.den → Bool × σ) (s : σ) :
    d.evaluateAndApply env T.helper keys points op s (r : Int) =
      runCallback op (((List.range h0).map fun h =>
        mapRes (fun kx : DpfKey × U128 => evaluateOne d env T kx.1 h
          (kx.2 >>> (r + lastLogSize params - logSize params h))) (keys.zip points)) ++ [err .invalidArgument]) s := by
  have wf := hs.wf
  have hcr := hs.toCreated
  have hn : d.n = params.length := hcr.n_eq
  have hst : d.treeAt h0 - d.startOf h0 = stepLevels d h0 := rfl
  rw [wf.evaluateAndApply_tooMany env hlen (fun k hkk => (wf.wellFormedKey_iff k).mp (hk k hkk))
    (fun h hh => hs.typedAt hh) r (by rw [hcr.lastLog]; exact hr) (by omega) hfew hmany
    (by rw [hst]; unfold wrapInt32; omega) op s]
  congr 2
  apply List.map_congr_left
  intro h hh
  exact Dpf.WF.applyShares_eq hs env hlen hk r hp (by have := List.mem_range.mp hh; omega)

/-- C10, too many keys, one level: if the number of correction words is 2^31 or more and modulo 2^32 the number `n`
of tree levels, each key is evaluated with correction words of others: the first correction words of the first `n`
keys. -/
theorem C10_wrapped (fp : FpEnv) (param : DpfParameters) (T : Ty) (d : Dpf)
    (hs : Setup fp [param] (fun _ => T) d) (env : Env) (keys : List DpfKey) (points : List U128)
    (hlen : points.length = keys.length) (hk : ∀ k ∈ keys, WellFormedKey d k) (r : Nat)
    (hp : ∀ x ∈ points, x.toNat < 2 ^ (lastLogSize [param] + r)) (hr : r + lastLogSize [param] < 2 ^ 31)
    (hmany : 2 ^ 31 ≤ stepLevels d 0 * keys.length)
    (hmod : stepLevels d 0 * keys.length % 2 ^ 32 = stepLevels d 0) {σ : Type}
    (op : σ → List T.den → Bool × σ) (s : σ) :
    d.evaluateAndApply env T.helper keys points op s (r : Int) =
      runCallback op [mapRes (fun kx : DpfKey × U128 => evaluateOne d env T
          { kx.1 with correctionWords :=
              (keys.take (stepLevels d 0)).map fun k => k.correctionWords.getD 0 ⟨0, false, false, []⟩ }
          0 (kx.2 >>> r)) (keys.zip points)] s := by
  have wf := hs.wf
  have hcr := hs.toCreated
  have hn : d.n = 1 := hcr.n_eq
  have hlog : d.logAt 0 = lastLogSize [param] := by rw [← hcr.lastLog, hn]
  have hst : stepLevels d 0 = d.treeAt 0 := by simp [stepLevels, Dpf.treeAt]
  have htl := wf.tree_le 0
  have hl128 := wf.log_le 0
  rw [hst] at hmany hmod ⊢
  have htpos : 0 < d.treeAt 0 := by
    rcases Nat.eq_zero_or_pos (d.treeAt 0) with e | e
    · rw [e, Nat.zero_mul] at hmany; omega
    · exact e
  have hKL : d.treeAt 0 ≤ keys.length := by
    have : d.treeAt 0 * keys.length ≤ 128 * keys.length := Nat.mul_le_mul_right _ (by omega)
    omega
  have hwords : (Dpf.stepWords keys 0 (d.treeAt 0)).take (d.treeAt 0) =
      (keys.take (d.treeAt 0)).map fun k => k.correctionWords.getD 0 ⟨0, false, false, []⟩ := by
    have e1 : Dpf.stepWords keys 0 (d.treeAt 0) =
        (keys.map fun k => k.correctionWords.getD 0 ⟨0, false, false, []⟩) ++
          ((List.range (d.treeAt 0 - 1)).flatMap fun l => (List.range keys.length).map fun j =>
            (keys.getD j DpfKey.default).correctionWords.getD (l + 1) ⟨0, false, false, []⟩) := by
      unfold Dpf.stepWords
      rw [show d.treeAt 0 = (d.treeAt 0 - 1) + 1 by omega, List.range_succ_eq_map, List.flatMap_cons,
        range_map_getD keys DpfKey.default (fun k => k.correctionWords.getD (0 + 0) ⟨0, false, false, []⟩),
        List.flatMap_map]
      simp
    rw [e1, List.take_append_of_le_length (by simpa using hKL), List.map_take]
  rw [wf.evaluateAndApply_wrapped env hlen (fun k hkk => (wf.wellFormedKey_iff k).mp (hk k hkk))
    (hs.typedAt wf.pos) hn r (by rw [hlog]; exact hr) htpos (by unfold wrapInt32; omega) op s, hwords]
  congr 2
  rw [← mapRes_zip (fun (key : DpfKey) (x : U128) => evaluateOne d env T
    { key with correctionWords := List.map (fun k => k.correctionWords.getD 0 ⟨0, false, false, []⟩)
                (keys.take (d.treeAt 0)) } 0 (x >>> r))
    keys points DpfKey.default 0 hlen]
  apply mapRes_congr
  intro j hj
  simp only [List.mem_range] at hj
  have hkj : keys.getD j DpfKey.default ∈ keys := by simp [List.getD, hj]
  have hpj : points.getD j 0 ∈ points := by simp [List.getD, show j < points.length by omega]
  have hko := (wf.wellFormedKey_iff _).mp (hk _ hkj)
  generalize keys.getD j DpfKey.default = key at hkj hko ⊢
  have hxp := hp _ hpj
  generalize points.getD j 0 = x at hxp hpj ⊢
  generalize hws : (keys.take (d.treeAt 0)).map (fun k => k.correctionWords.getD 0 ⟨0, false, false, []⟩) = ws
  have hwl : ws.length = d.treeAt 0 := by
    rw [← hws, List.length_map, List.length_take]; omega
  have hneed : d.pv.treeLevelsNeeded = d.treeAt 0 + 1 := by
    have := wf.needed
    rw [hn] at this
    exact this
  have hko' : d.KeyOk { key with correctionWords := ws } :=
    ⟨hko.seed, hko.last, by rw [hneed]; exact congrArg (· + 1) hwl, fun h hh => by omega⟩
  unfold evaluateOne
  rw [wf.evaluateAt_ok env hko' wf.pos (hs.typedAt wf.pos)
    (by
      intro y hy
      simp only [List.mem_singleton] at hy
      subst hy
      rw [Dpf.shr_toNat, hlog]
      apply Nat.div_lt_of_lt_mul
      rw [← Nat.pow_add, Nat.add_comm]
      exact hxp), if_neg (by simp)]
  have hvc : d.getValueCorrectionAsArray T.helper { key with correctionWords := ws } 0 =
      d.getValueCorrectionAsArray T.helper key 0 := by
    unfold Dpf.getValueCorrectionAsArray
    have e : ¬ (((0 : Nat) : Int) < (d.pv.parameters.length : Int) - 1) := by
      have : d.pv.parameters.length = 1 := hn
      omega
    rw [if_neg e, if_neg e]
  rw [hvc]
  simp only [List.map_cons, List.map_nil, Dpf.shr_toNat]
  have hnode : Dpf.nodeAt env { key with correctionWords := ws } (d.treeAt 0)
      (x.toNat / 2 ^ r / 2 ^ d.gapAt 0) =
      walk (dpfPrg env) ws (x.toNat / 2 ^ (r + d.logAt 0 - d.treeAt 0)) (Dpf.root key) := by
    unfold Dpf.nodeAt
    rw [Nat.div_div_eq_div_mul, ← Nat.pow_add, List.take_of_length_le (by dsimp only; omega)]
    have e : r + d.gapAt 0 = r + d.logAt 0 - d.treeAt 0 := by unfold Dpf.gapAt; omega
    rw [e]
    rfl
  cases d.getValueCorrectionAsArray T.helper key 0 with
  | ok corr =>
    rw [bind_ok, bind_ok]
    show _ = rd [_] 0
    unfold Dpf.share
    rw [hnode]
    rfl
  | err _ => rfl
  | ub => rfl
  | crash => rfl

/-- C10, right shifts next to the largest `int`: the sum with the size of the domain overflows, which is undefined
behaviour. -/
theorem C10_shift (fp : FpEnv) (params : List DpfParameters) (T : Ty) (d : Dpf)
    (hs : Setup fp params (fun _ => T) d) (env : Env) (keys : List DpfKey) (points : List U128)
    (hlen : points.length = keys.length) (hk : ∀ k ∈ keys, WellFormedKey d k) (r : Nat)
    (hr : 2 ^ 31 ≤ r + lastLogSize params) {σ : Type} (op : σ → List T.den → Bool × σ) (s : σ) :
    d.evaluateAndApply env T.helper keys points op s (r : Int) = (ub, s) := by
  have wf := hs.wf
  have hcr := hs.toCreated
  obtain ⟨p, hp1, hp2⟩ := wf.param_ok wf.pos
  rw [wf.evaluateAndApply_loop env hlen (fun k hkk => (wf.wellFormedKey_iff k).mp (hk k hkk)) T.helper r r,
    show d.n = (d.n - 1) + 1 by have := wf.pos; omega, List.range'_succ]
  unfold Dpf.applyLoop Dpf.applyLevel
  dsimp only
  rw [wf.tree_ok wf.pos, bind_ok, hp1, bind_ok, wf.lastLog_ok, bind_ok, intRange_ub (by rw [hcr.lastLog]; omega)]
  rfl

/-- C10 on the example: the second level is asked for and the third not; one point twice. -/
example : ∃ l0 l1 : List (Ty.uint .w8).den,
    mapRes (evaluateOne exDpf exEnv (.uint .w8) exKey 0) [6, 0, 6] = ok l0 ∧
    mapRes (evaluateOne exDpf exEnv (.uint .w8) exKey 1) [25, 2, 25] = ok l1 ∧
    exDpf.evaluateAndApply exEnv (Ty.uint .w8).helper [exKey, exKey, exKey] [400, 35, 400]
      (fun calls vals => (decide (calls.length < 1), calls ++ [vals])) [] 0 = (ok (), [l0, l1]) := by
  have h0 := Res.eq_ok_getD (r := mapRes (evaluateOne exDpf exEnv (.uint .w8) exKey 0) [6, 0, 6])
    (by decide +kernel) []
  have h1 := Res.eq_ok_getD (r := mapRes (evaluateOne exDpf exEnv (.uint .w8) exKey 1) [25, 2, 25])
    (by decide +kernel) []
  refine ⟨_, _, h0, h1, ?_⟩
  have hk : ∀ k ∈ [exKey, exKey, exKey], WellFormedKey exDpf k := by
    intro k hk
    have : k = exKey := by simpa using hk
    subst this
    exact (exDpf_setup.wf.wellFormedKey_iff exKey).mpr (exDpf_setup.wf.history exEnv exHist0).keyOk
  have hp : ∀ x ∈ ([400, 35, 400] : List U128), x.toNat < 2 ^ (lastLogSize exParams8 + 0) := by
    intro x hx
    simp only [List.mem_cons, List.not_mem_nil, or_false] at hx
    rcases hx with rfl | rfl | rfl <;> decide
  have := C10_apply_partial exFp exParams8 (.uint .w8) exDpf exDpf_setup exEnv [exKey, exKey, exKey] [400, 35, 400]
    rfl hk 0 hp (by decide) (by decide +kernel) (fun (calls : List (List (Ty.uint .w8).den)) vals => (decide (calls.length < 1), calls ++ [vals])) []
  refine this.trans ?_
  have e0 : mapRes (fun kx : DpfKey × U128 => evaluateOne exDpf exEnv (.uint .w8) kx.1 0
      (kx.2 >>> (0 + lastLogSize exParams8 - logSize exParams8 0)))
      ([exKey, exKey, exKey].zip [400, 35, 400]) =
      mapRes (evaluateOne exDpf exEnv (.uint .w8) exKey 0) [6, 0, 6] := rfl
  have e1 : mapRes (fun kx : DpfKey × U128 => evaluateOne exDpf exEnv (.uint .w8) kx.1 1
      (kx.2 >>> (0 + lastLogSize exParams8 - logSize exParams8 1)))
      ([exKey, exKey, exKey].zip [400, 35, 400]) =
      mapRes (evaluateOne exDpf exEnv (.uint .w8) exKey 1) [25, 2, 25] := rfl
  show runCallback _ (_ :: _ :: _ :: _ :: []) [] = _
  dsimp only
  rw [e0, e1, h0, h1]
  rfl

/-- A DPF with one level of one bit. -/
def exParam1 : DpfParameters := ⟨1, some (.integer 128), .val 0⟩
def exDpf1 : Dpf := (Dpf.createIncremental exFp [exParam1]).getD ⟨⟨[], 0, [], []⟩, [], []⟩

theorem exDpf1_setup : Setup exFp [exParam1] (fun _ => .uint .w128) exDpf1 :=
  Setup.of_flat (Ts := []) (show Dpf.createIncremental exFp [exParam1] = ok exDpf1 from
      Res.eq_ok_getD (by decide +kernel) _)
    (by
      intro h p hp
      match h, hp with
      | 0, hp => simp at hp; rw [← hp]; rfl
      | h + 1, hp => simp at hp)
    (fun _ _ => Or.inr ⟨.w128, rfl⟩) (fun _ _ => Or.inl rfl)

/-- A key for 0 and a key for 1. -/
def exKey10 : DpfKey :=
  ((exDpf1.generateKeysIncremental exEnv 0 [.integer (.u64 7)] 1 2).getD (DpfKey.default, DpfKey.default)).1
def exKey11 : DpfKey :=
  ((exDpf1.generateKeysIncremental exEnv 1 [.integer (.u64 9)] 30 41).getD (DpfKey.default, DpfKey.default)).2

/-- A key with the correction word of the first one. -/
def exSwap (k : DpfKey) : DpfKey :=
  { k with correctionWords := [exKey10.correctionWords.getD 0 ⟨0, false, false, []⟩] }

theorem exKey1_ok {k : DpfKey} (hv : exDpf1.pv.validateDpfKey k = ok ()) : WellFormedKey exDpf1 k :=
  (exDpf1_setup.wf.wellFormedKey_iff k).mpr ((exDpf1_setup.wf.validateDpfKey_iff k).mp hv)

theorem mapRes_replicate {α β : Type} {f : α → Res β} {a : α} {b : β} (h : f a = ok b) (n : Nat) :
    mapRes f (List.replicate n a) = ok (List.replicate n b) := by
  induction n with
  | zero => rfl
  | succ n ih => rw [List.replicate_succ, mapRes_cons, h, bind_ok, ih]; rfl

/-- C10 is false of the code for 2^32 + 1 keys: here the callback gets a wrong value for the second key. -/
theorem C10_refuted : ∃ (fp : FpEnv) (params : List DpfParameters) (T : Ty) (d : Dpf) (env : Env)
    (keys : List DpfKey) (points : List U128) (key : DpfKey) (x : U128) (values : List T.den) (v : T.den),
    Setup fp params (fun _ => T) d ∧ points.length = keys.length ∧ (∀ k ∈ keys, WellFormedKey d k) ∧
    (∀ x ∈ points, x.toNat < 2 ^ lastLogSize params) ∧ keys[1]? = some key ∧ points[1]? = some x ∧
    evaluateOne d env T key 0 x = ok v ∧ values[1]? ≠ some v ∧
    d.evaluateAndApply env T.helper keys points (fun s v => (true, s ++ [v])) [] 0 = (ok (), [values]) := by
  have hK : (exKey10 :: List.replicate (2 ^ 32) exKey11).length = 2 ^ 32 + 1 := by
    rw [List.length_cons, List.length_replicate]
  have hk : ∀ k ∈ exKey10 :: List.replicate (2 ^ 32) exKey11, WellFormedKey exDpf1 k := by
    intro k hk
    rcases List.mem_cons.mp hk with rfl | hk
    · exact exKey1_ok (by decide +kernel)
    · rw [(List.mem_replicate.mp hk).2]; exact exKey1_ok (by decide +kernel)
  have hp : ∀ x ∈ List.replicate (2 ^ 32 + 1) (1 : U128), x.toNat < 2 ^ (lastLogSize [exParam1] + 0) := by
    intro x hx
    rw [(List.mem_replicate.mp hx).2]; decide
  have hst : stepLevels exDpf1 0 = 1 := by decide +kernel
  have h := C10_wrapped exFp exParam1 (.uint .w128) exDpf1 exDpf1_setup exEnv
    (exKey10 :: List.replicate (2 ^ 32) exKey11) (List.replicate (2 ^ 32 + 1) 1)
    (by rw [hK, List.length_replicate]) hk 0 hp (by decide) (by rw [hK, hst]; omega) (by rw [hK, hst])
    (fun (s : List (List (Ty.uint .w128).den)) v => (true, s ++ [v])) []
  rw [hst] at h
  have h0 := Res.eq_ok_getD (r := evaluateOne exDpf1 exEnv (.uint .w128) (exSwap exKey10) 0 ((1 : U128) >>> 0))
    (by decide +kernel) (0 : BitVec 128)
  have h1 := Res.eq_ok_getD (r := evaluateOne exDpf1 exEnv (.uint .w128) (exSwap exKey11) 0 ((1 : U128) >>> 0))
    (by decide +kernel) (0 : BitVec 128)
  have h2 := Res.eq_ok_getD (r := evaluateOne exDpf1 exEnv (.uint .w128) exKey11 0 1) (by decide +kernel)
    (0 : BitVec 128)
  have hne : (evaluateOne exDpf1 exEnv (.uint .w128) (exSwap exKey11) 0 ((1 : U128) >>> 0)).getD (0 : BitVec 128) ≠
      (evaluateOne exDpf1 exEnv (.uint .w128) exKey11 0 1).getD (0 : BitVec 128) := by decide +kernel
  generalize (evaluateOne exDpf1 exEnv (.uint .w128) (exSwap exKey11) 0 ((1 : U128) >>> 0)).getD (0 : BitVec 128) = v1
    at h1 hne
  generalize (evaluateOne exDpf1 exEnv (.uint .w128) (exSwap exKey10) 0 ((1 : U128) >>> 0)).getD (0 : BitVec 128) = v0
    at h0
  have hz : (exKey10 :: List.replicate (2 ^ 32) exKey11).zip (List.replicate (2 ^ 32 + 1) (1 : U128)) =
      (exKey10, 1) :: List.replicate (2 ^ 32) (exKey11, 1) := by
    rw [List.replicate_succ (n := 2 ^ 32), List.zip_cons_cons, List.zip_replicate']
  have hm : mapRes (fun kx : DpfKey × U128 => evaluateOne exDpf1 exEnv (.uint .w128) (exSwap kx.1) 0 (kx.2 >>> 0))
      ((exKey10, 1) :: List.replicate (2 ^ 32) (exKey11, 1)) = ok (v0 :: List.replicate (2 ^ 32) v1) := by
    rw [mapRes_cons, h0, bind_ok, mapRes_replicate (a := (exKey11, (1 : U128))) h1]; rfl
  rw [hz] at h
  replace h := h.trans (congrArg (fun l => runCallback (fun (s : List (List (Ty.uint .w128).den)) v =>
    (true, s ++ [v])) [l] []) hm)
  refine ⟨exFp, [exParam1], .uint .w128, exDpf1, exEnv, _, _, exKey11, 1, v0 :: List.replicate (2 ^ 32) v1, _,
    exDpf1_setup, ?_, hk, hp, ?_, ?_, h2, ?_, h⟩
  · rw [hK, List.length_replicate]
  · rw [List.getElem?_cons_succ, List.getElem?_replicate, if_pos (by decide)]
  · rw [List.getElem?_replicate, if_pos (by decide)]
  · rw [List.getElem?_cons_succ, List.getElem?_replicate, if_pos (by decide)]
    intro e
    exact hne (Option.some.inj e)

/-- C10, the other cases: 2^31 keys for the DPF with one level are rejected; a shift by 2^31 - 1 overflows. -/
example (keys : List DpfKey) (hlen : keys.length = 2 ^ 31) (hk : ∀ k ∈ keys, k = exKey10) :
    exDpf1.evaluateAndApply exEnv (Ty.uint .w128).helper keys (keys.map fun _ => 1)
      (fun (n : Nat) _ => (true, n + 1)) 0 0 = (err .invalidArgument, 0) ∧
    exDpf1.evaluateAndApply exEnv (Ty.uint .w128).helper [exKey10] [1]
      (fun (n : Nat) _ => (true, n + 1)) 0 ((2 ^ 31 - 1 : Nat) : Int) = (ub, 0) := by
  have hst : stepLevels exDpf1 0 = 1 := by decide +kernel
  refine ⟨C10_tooMany exFp [exParam1] (.uint .w128) exDpf1 exDpf1_setup exEnv keys _ (by simp)
      (fun k h => by rw [hk k h]; exact exKey1_ok (by decide +kernel)) 0 ?_ (by decide) 0 (by decide)
      (fun _ h => by omega) (by rw [hst, hlen]; omega) (by rw [hst, hlen]; decide) _ _,
    C10_shift exFp [exParam1] (.uint .w128) exDpf1 exDpf1_setup exEnv [exKey10] [1] rfl
      (fun k h => by rw [List.mem_singleton.mp h]; exact exKey1_ok (by decide +kernel)) _ (by decide) _ _⟩
  intro x hx
  simp only [List.mem_map] at hx
  obtain ⟨_, _, rfl⟩ := hx
  decide

/-! ## C11 -/

/-- C11, the checks that are made: a wrong number of points or a malformed key is rejected with
INVALID_ARGUMENT before the callback is called. Missing: out-of-range points, which are not rejected
(`C11_refuted`, `C11_reduced`). -/
theorem C11_rejects_partial (fp : FpEnv) (params : List DpfParameters) (d : Dpf)
    (hs : Created fp params d) (env : Env) (T : Ty) (keys : List DpfKey) (points : List U128)
    (hbad : points.length ≠ keys.length ∨ ∃ k ∈ keys, ¬ WellFormedKey d k) (r : Int) {σ : Type}
    (op : σ → List T.den → Bool × σ) (s : σ) :
    d.evaluateAndApply env T.helper keys points op s r = (err .invalidArgument, s) := by
  have wf := hs.wf
  unfold Dpf.evaluateAndApply
  by_cases hlen : points.length = keys.length
  · rcases hbad with h | ⟨k, hk, hb⟩
    · exact absurd hlen h
    · rw [failIf_false (by omega), Dpf.keep_ok]
      rw [Dpf.mapRes_err (c := .invalidArgument) (fun k _ => by
        rcases wf.validateDpfKey_cases k with h | h
        · exact Or.inl ⟨(), h⟩
        · exact Or.inr h)
        ⟨k, hk, by
          rcases wf.validateDpfKey_cases k with h | h
          · exact absurd ((wf.wellFormedKey_iff k).mpr ((wf.validateDpfKey_iff k).mp h)) hb
          · exact h⟩]
      rfl
  · rw [failIf_true hlen]; rfl

/-- What the code does with points outside the domain: the bits above the domain are ignored. -/
theorem C11_reduced (fp : FpEnv) (params : List DpfParameters) (T : Ty) (d : Dpf)
    (hs : Setup fp params (fun _ => T) d) (env : Env) (keys : List DpfKey) (points points' : List U128)
    (hlen : points.length = keys.length) (hlen' : points'.length = keys.length)
    (hk : ∀ k ∈ keys, WellFormedKey d k) (r : Nat)
    (hmod : ∀ j, j < keys.length → (points.getD j 0).toNat % 2 ^ (lastLogSize params + r) =
      (points'.getD j 0).toNat % 2 ^ (lastLogSize params + r)) (hr : r + lastLogSize params < 2 ^ 31)
    (hmany : ∀ h, h < params.length → stepLevels d h * keys.length < 2 ^ 31) {σ : Type}
    (op : σ → List T.den → Bool × σ) (s : σ) :
    d.evaluateAndApply env T.helper keys points op s (r : Int) =
      d.evaluateAndApply env T.helper keys points' op s (r : Int) := by
  have wf := hs.wf
  have hcr := hs.toCreated
  have hn : d.n = params.length := hcr.n_eq
  have hlast := hcr.lastLog
  have hr' : r + d.logAt (d.n - 1) < 2 ^ 31 := by rw [hlast]; exact hr
  have hw : ∀ h, h < d.n → (d.treeAt h - d.startOf h) * keys.length < 2 ^ 31 := fun h hh => hmany h (by omega)
  rw [wf.evaluateAndApply_ok env hlen (fun k hkk => (wf.wellFormedKey_iff k).mp (hk k hkk))
    (fun h hh => hs.typedAt hh) r hr' hw op s, wf.evaluateAndApply_ok env hlen'
    (fun k hkk => (wf.wellFormedKey_iff k).mp (hk k hkk)) (fun h hh => hs.typedAt hh) r hr' hw op s]
  congr 1
  apply List.map_congr_left
  intro h hh
  simp only [List.mem_range] at hh
  have hll := wf.log_le_last hh
  unfold Dpf.applyShares
  apply mapRes_congr
  intro j hj
  simp only [List.mem_range] at hj
  have hm := hmod j hj
  congr 1
  funext corr
  congr 1
  apply wf.share_mod
  have e : ∀ z : Nat, z / 2 ^ (r + d.logAt (d.n - 1) - d.logAt h) % 2 ^ d.logAt h =
      z % 2 ^ (lastLogSize params + r) / 2 ^ (r + d.logAt (d.n - 1) - d.logAt h) := by
    intro z
    rw [← Nat.mod_mul_right_div_self, ← Nat.pow_add]
    congr 3; omega
  rw [e, e, hm]

/-- C11 on the example: only the nine low bits of the points count, in front of the shifted out ones. -/
example : exDpf.evaluateAndApply exEnv (Ty.uint .w8).helper [exKey, exKey] [400, 35]
      (fun (n : Nat) _ => (true, n + 1)) 0 ((1 : Nat) : Int) =
    exDpf.evaluateAndApply exEnv (Ty.uint .w8).helper [exKey, exKey] [400 + 2 ^ 40, 35 + 2 ^ 100]
      (fun (n : Nat) _ => (true, n + 1)) 0 ((1 : Nat) : Int) := by
  refine C11_reduced exFp exParams8 (.uint .w8) exDpf exDpf_setup exEnv _ _ _ rfl rfl ?_ 1 ?_ (by decide) ?_ _ _
  · intro k hk
    have : k = exKey := by simpa using hk
    subst this
    exact (exDpf_setup.wf.wellFormedKey_iff exKey).mpr (exDpf_setup.wf.history exEnv exHist0).keyOk
  · decide +kernel
  · decide +kernel

/-- C11 as documented is false of the code: a point outside the domain is accepted. -/
theorem C11_refuted : ∃ (fp : FpEnv) (params : List DpfParameters) (T : Ty) (d : Dpf) (env : Env)
    (keys : List DpfKey) (points : List U128) (x : U128) (calls : List (List T.den)),
    Setup fp params (fun _ => T) d ∧
    (∀ k ∈ keys, WellFormedKey d k) ∧ x ∈ points ∧ 2 ^ lastLogSize params ≤ x.toNat ∧
    d.evaluateAndApply env T.helper keys points (fun s v => (true, s ++ [v])) [] 0 = (ok (), calls) := by
  have h : (exDpf.evaluateAndApply exEnv (Ty.uint .w8).helper [exKey] [512]
      (fun (s : List (List (Ty.uint .w8).den)) v => (true, s ++ [v])) [] 0).1 = ok () := by decide +kernel
  refine ⟨exFp, exParams8, .uint .w8, exDpf, exEnv, [exKey], [512], 512, _, exDpf_setup, ?_, by simp,
    by decide, Prod.ext h rfl⟩
  intro k hk
  have : k = exKey := by simpa using hk
  subst this
  exact (exDpf_setup.wf.wellFormedKey_iff exKey).mpr (exDpf_setup.wf.history exEnv exHist0).keyOk

/-- C11 on the example: two points for one key; a key without a seed. -/
example : exDpf.evaluateAndApply exEnv (Ty.uint .w8).helper [exKey] [3, 4]
      (fun (n : Nat) _ => (true, n + 1)) 0 0 = (err .invalidArgument, 0) ∧
    exDpf.evaluateAndApply exEnv (Ty.uint .w8).helper [exKey, DpfKey.default] [3, 4]
      (fun (n : Nat) _ => (true, n + 1)) 0 0 = (err .invalidArgument, 0) :=
  ⟨C11_rejects_partial exFp exParams8 exDpf exDpf_setup.toCreated exEnv _ _ _ (Or.inl (by simp)) _ _ _,
   C11_rejects_partial exFp exParams8 exDpf exDpf_setup.toCreated exEnv _ _ _
    (Or.inr ⟨DpfKey.default, by simp, fun h => h.seed rfl⟩) _ _ _⟩

end Verif
