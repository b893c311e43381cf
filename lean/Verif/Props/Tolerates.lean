import Verif.Lemmas.Tolerates
import Verif.Props.Accept
/-!
# Security parameters (C74)
-/
namespace Verif
open Res Spec

/-- C74: the number of bits reserved for elements of a well-formed type, and for which security parameters there
is one; all others are refused. -/
theorem C74_reserved (fp : FpEnv) (t : ValueType) (c : Canon) (hc : canon t = some c) (hv : ValidType t)
    (hr : c.reserved < 2 ^ 31) (σ : Rat) :
    (Tolerates fp.level fp.log2 σ c → bitsNeeded fp t (.val σ) = ok (c.reserved : Int)) ∧
    (¬ Tolerates fp.level fp.log2 σ c →
      bitsNeeded fp t (.val σ) = err .invalidArgument ∨ bitsNeeded fp t (.val σ) = err .unimplemented) :=
  bitsNeeded_exact fp t c hc hv hr σ

/-- C74: parameters that are valid otherwise, for elements of at most 2^31 - 128 bits, are accepted exactly if
every type can be used with the security parameter of its level, or with 40 plus the logarithm of the domain size
if it is 0. -/
theorem C74_create_partial (fp : FpEnv) (params : List DpfParameters) (hv : ValidParams params)
    (hs : ∀ p ∈ params, ∃ c, canon p.vt = some c ∧ 0 < c.reserved ∧ c.reserved ≤ 2 ^ 31 - 128) :
    ((∃ d, Dpf.createIncremental fp params = ok d) ↔
      ∀ p ∈ params, ∀ c σ, canon p.vt = some c → p.securityParameter = .val σ →
        Tolerates fp.level fp.log2 (if σ = 0 then 40 + p.logDomainSize else σ) c) ∧
    ((¬ ∃ d, Dpf.createIncremental fp params = ok d) →
      Dpf.createIncremental fp params = err .invalidArgument ∨
      Dpf.createIncremental fp params = err .unimplemented) := by
  obtain ⟨h1, h2⟩ := createIncremental_exact fp hv fun p hp => by
    obtain ⟨c, hc, h0, hr⟩ := hs p hp
    exact ⟨c, hc, h0, by omega⟩
  refine ⟨⟨fun ⟨d, hd⟩ => ?_, h1⟩, fun h => h2 fun ht => h (h1 ht)⟩
  apply Classical.byContradiction
  intro hno
  rcases h2 hno with h | h <;> rw [hd] at h <;> cases h

/-- C74: a type that can be used with a security parameter can be used with every smaller one. -/
theorem C74_monotone (level : Nat → Nat → Rat) (log2 : Nat → Rat) (σ σ' : Rat) (c : Canon) (h : σ' ≤ σ)
    (ht : Tolerates level log2 σ c) : Tolerates level log2 σ' c :=
  ht.mono σ' h

/-- C74, restricted to tuples with the integers modulo N at the end: the condition is the intended one. -/
theorem C74_intended_partial (level : Nat → Nat → Rat) (log2 : Nat → Rat) (σ : Rat) (others : List Canon)
    (b : Int) (N n : Nat) (ho : ∀ e ∈ others, e.isMod = false) :
    Tolerates level log2 σ (.tuple (others ++ List.replicate n (.intModN b N))) ↔
      (0 < n → σ ≤ level n N) ∧ ∀ e ∈ others, Tolerates level log2 (roundDouble (σ + log2 others.length)) e := by
  have ek : (others ++ List.replicate n (Canon.intModN b N)).countP (fun e => !e.isMod) = others.length := by
    rw [List.countP_append, List.countP_eq_length.mpr (by simpa using ho), List.countP_replicate]
    simp [Canon.isMod]
  have en : (others ++ List.replicate n (Canon.intModN b N)).countP (·.isMod) = n := by
    rw [List.countP_append, List.countP_eq_zero.mpr (by simpa using ho), List.countP_replicate]
    simp [Canon.isMod]
  constructor
  · intro h
    cases h with
    | tuple _ _ k n' b' N' hk hn hall hlev hrec =>
      rw [ek] at hk
      rw [en] at hn
      subst hk hn
      refine ⟨fun h0 => ?_, fun e he => hrec e (by rw [List.take_left]; exact he)⟩
      have := hall (.intModN b N) (by simp; exact .inr (by omega)) rfl
      cases this
      exact hlev h0
  · rintro ⟨h1, h2⟩
    refine .tuple σ _ others.length n b N ek.symm en.symm (fun e he hm => ?_) h1 fun e he => h2 e (by
      rwa [List.take_left] at he)
    rcases List.mem_append.mp he with he | he
    · rw [ho e he] at hm; cases hm
    · exact (List.mem_replicate.mp he).2

/-- Without that restriction the condition is not the intended one: for a tuple of an integer modulo 5 and a pair
of integers modulo 2^60, parameters are accepted with a security parameter for which the pair alone is refused. -/
theorem C74_intended_refuted : ∃ (fp : FpEnv) (a t : ValueType) (σ : Rat) (d : Dpf),
    Dpf.createIncremental fp [⟨3, some (.tuple [a, t]), .val σ⟩] = ok d ∧
    Dpf.createIncremental fp [⟨3, some t, .val σ⟩] = err .invalidArgument :=
  ⟨⟨fun n N => 131 - (if N = 5#128 then 3 else 60) - (if n = 1 then 1 else 3), fun _ => 0⟩, .intModN 32 (.u64 5),
    .tuple [.intModN 64 (.u64 (2 ^ 60)), .intModN 64 (.u64 (2 ^ 60))], 100, _,
    Res.eq_ok_getD (by decide +kernel) exDpf, by
      generalize hx : Dpf.createIncremental _ _ = x
      have h : (match (Dpf.createIncremental
          ⟨fun n N => 131 - (if N = 5#128 then 3 else 60) - (if n = 1 then 1 else 3), fun _ => 0⟩
          [⟨3, some (.tuple [.intModN 64 (.u64 (2 ^ 60)), .intModN 64 (.u64 (2 ^ 60))]), .val 100⟩]) with
        | .err .invalidArgument => true | _ => false) = true := by decide +kernel
      rw [hx] at h
      split at h
      · rfl
      · cases h⟩

/-- C74 for DCFs on domains of 2 to 2^128 points: the security parameter given is ignored; the condition is that
the type can be used with 40 plus the logarithm of half the domain size. -/
theorem C74_dcf_partial (fp : FpEnv) (p : DpfParameters) (h1 : 1 ≤ p.logDomainSize) (h2 : p.logDomainSize ≤ 128)
    (t : ValueType) (ht : p.valueType = some t) (hv : ValidType t) (c : Canon) (hc : canon t = some c)
    (h0 : 0 < c.reserved) (hr : c.reserved ≤ 2 ^ 31 - 128) :
    ((∃ d, Dcf.create fp p = ok d) ↔ Tolerates fp.level fp.log2 (40 + (p.logDomainSize - 1 : Int)) c) ∧
    ((¬ ∃ d, Dcf.create fp p = ok d) →
      Dcf.create fp p = err .invalidArgument ∨ Dcf.create fp p = err .unimplemented) := by
  have hvt : p.vt = t := by simp [DpfParameters.vt, ht]
  have hmem : ∀ q, q ∈ Dcf.dpfParameters p ↔ ∃ i : Nat, i < p.logDomainSize.toNat ∧ q = ⟨(i : Int), some t, .val 0⟩ := by
    intro q
    unfold Dcf.dpfParameters
    rw [List.mem_map]
    constructor
    · rintro ⟨i, hi, rfl⟩
      exact ⟨i, List.mem_range.mp hi, by rw [hvt]⟩
    · rintro ⟨i, hi, rfl⟩
      exact ⟨i, List.mem_range.mpr hi, by rw [hvt]⟩
  have hvp : ValidParams (Dcf.dpfParameters p) := by
    refine ⟨?_, ?_, ?_, ?_, ?_⟩
    · intro h
      have := congrArg List.length h
      simp [Dcf.dpfParameters] at this
      omega
    · intro q hq
      obtain ⟨i, hi, rfl⟩ := (hmem q).mp hq
      dsimp only
      omega
    · unfold Dcf.dpfParameters
      rw [List.pairwise_map]
      refine List.Pairwise.imp ?_ List.pairwise_lt_range
      intro a b hab
      dsimp only
      omega
    · intro q hq
      obtain ⟨i, hi, rfl⟩ := (hmem q).mp hq
      exact ⟨_, rfl, hv⟩
    · intro q hq
      obtain ⟨i, hi, rfl⟩ := (hmem q).mp hq
      exact ⟨0, rfl, by decide, by decide⟩
  obtain ⟨e1, e2⟩ := C74_create_partial fp (Dcf.dpfParameters p) hvp (by
    intro q hq
    obtain ⟨i, hi, rfl⟩ := (hmem q).mp hq
    exact ⟨c, hc, h0, hr⟩)
  have ec : Dcf.create fp p = (Dpf.createIncremental fp (Dcf.dpfParameters p) >>= fun d =>
      ok ⟨p.logDomainSize, d⟩) := by
    unfold Dcf.create
    rw [failIf_false (by omega), bind_ok]
    dsimp only
    rw [(validateParameters_iff _).mpr hvp, bind_ok]
  have ex : (∃ d, Dcf.create fp p = ok d) ↔ ∃ d, Dpf.createIncremental fp (Dcf.dpfParameters p) = ok d := by
    rw [ec]
    constructor
    · rintro ⟨d, hd⟩
      obtain ⟨d', hd', _⟩ := bind_eq_ok.mp hd
      exact ⟨d', hd'⟩
    · rintro ⟨d, hd⟩
      exact ⟨_, by rw [hd, bind_ok]⟩
  refine ⟨ex.trans (e1.trans ⟨fun h => ?_, fun h => ?_⟩), fun h => ?_⟩
  · have := h ⟨((p.logDomainSize.toNat - 1 : Nat) : Int), some t, .val 0⟩
      ((hmem _).mpr ⟨p.logDomainSize.toNat - 1, by omega, rfl⟩) c 0 hc rfl
    dsimp only at this
    rw [if_pos rfl, show ((p.logDomainSize.toNat - 1 : Nat) : Int) = p.logDomainSize - 1 by omega] at this
    exact this
  · intro q hq c' σ hc' hσ
    obtain ⟨i, hi, rfl⟩ := (hmem q).mp hq
    have hc' : canon t = some c' := hc'
    rw [hc] at hc'
    cases hc'
    cases hσ
    rw [if_pos rfl]
    refine h.mono _ ?_
    dsimp only
    refine Rat.add_le_add_left.mpr ?_
    exact_mod_cast (by omega : (i : Int) ≤ p.logDomainSize - 1)
  · rw [ec]
    rcases e2 (fun h' => h (ex.mpr h')) with h' | h' <;> rw [h']
    · exact .inl rfl
    · exact .inr rfl

/-- C74 on an example: `Tuple<uint32_t, IntModN<10>, IntModN<10>>` can be used up to the level for two samples. -/
example : Canon.reserved (.tuple [.integer 32, .intModN 32 10, .intModN 32 10]) = 8 * 20 + 32 ∧
    bitsNeeded ⟨fun n _ => if n = 2 then 90 else 95, fun _ => 0⟩
      (.tuple [.integer 32, .intModN 32 (.u64 10), .intModN 32 (.u64 10)]) (.val 90) = ok 192 ∧
    bitsNeeded ⟨fun n _ => if n = 2 then 90 else 95, fun _ => 0⟩
      (.tuple [.integer 32, .intModN 32 (.u64 10), .intModN 32 (.u64 10)]) (.val 91) = err .invalidArgument := by
  decide +kernel

/-- C74 on an example: a pair of pairs; each inner pair needs one more bit. -/
example : Tolerates (fun n _ => if n = 2 then 90 else 95) (fun k => if k = 2 then 1 else 0) 89
      (.tuple [.tuple [.intModN 32 10, .intModN 32 10], .tuple [.intModN 32 7, .intModN 32 7]]) ∧
    ¬ Tolerates (fun n _ => if n = 2 then 90 else 95) (fun k => if k = 2 then 1 else 0) 90
      (.tuple [.tuple [.intModN 32 10, .intModN 32 10], .tuple [.intModN 32 7, .intModN 32 7]]) := by
  have h := fun σ => C74_intended_partial (fun n _ => if n = 2 then 90 else 95) (fun k => if k = 2 then 1 else 0) σ
    [.tuple [.intModN 32 10, .intModN 32 10], .tuple [.intModN 32 7, .intModN 32 7]] 0 0 0 (by
      intro e he
      simp only [List.mem_cons, List.not_mem_nil, or_false] at he
      rcases he with rfl | rfl <;> rfl)
  have g := fun σ N => C74_intended_partial (fun n _ => if n = 2 then 90 else 95) (fun k => if k = 2 then 1 else 0) σ
    [] 32 N 2 (by simp)
  simp only [List.replicate_zero, List.append_nil] at h
  rw [h, h]
  constructor
  · refine ⟨fun h => absurd h (by decide), ?_⟩
    intro e he
    simp only [List.mem_cons, List.not_mem_nil, or_false] at he
    rcases he with rfl | rfl
    · exact (g _ 10).mpr ⟨fun _ => by decide +kernel, by simp⟩
    · exact (g _ 7).mpr ⟨fun _ => by decide +kernel, by simp⟩
  · rintro ⟨_, h2⟩
    have := ((g _ 10).mp (h2 _ (by simp))).1 (by decide)
    exact absurd this (by decide +kernel)

/-! ## Security parameters that are not numbers -/

theorem checkParameters_nan {fp : FpEnv} {n b : Int} {N : U128} {σ : Rat}
    (h : IntModN.checkParameters fp n b N (.val σ) = ok ()) : IntModN.checkParameters fp n b N .nan = ok () := by
  unfold IntModN.checkParameters at h ⊢
  obtain ⟨_, h1, h⟩ := bind_eq_ok.mp h
  obtain ⟨_, h2, h⟩ := bind_eq_ok.mp h
  obtain ⟨_, h3, h⟩ := bind_eq_ok.mp h
  rw [h1, h2, h3, bind_ok, bind_ok, bind_ok]
  split at h
  · rename_i hb
    rw [if_pos hb]
    simp only [bind_eq_ok] at h ⊢
    obtain ⟨a1, h1, a2, h2, a3, h3, _⟩ := h
    exact ⟨a1, h1, a2, h2, a3, h3, rfl⟩
  · rename_i hb
    rw [if_neg hb]
    simp only [bind_eq_ok] at h ⊢
    obtain ⟨a1, h1, _⟩ := h
    exact ⟨a1, h1, rfl⟩

theorem getNumBytesRequired_nan {fp : FpEnv} {n b : Int} {N : U128} {σ : Rat} {r : Int}
    (h : IntModN.getNumBytesRequired fp n b N (.val σ) = ok r) : IntModN.getNumBytesRequired fp n b N .nan = ok r := by
  unfold IntModN.getNumBytesRequired at h ⊢
  simp only [bind_eq_ok] at h ⊢
  obtain ⟨_, h1, h2⟩ := h
  exact ⟨(), checkParameters_nan h1, h2⟩

mutual
theorem bitsNeeded_nan (fp : FpEnv) : (t : ValueType) → (σ : Rat) → (r : Int) → bitsNeeded fp t (.val σ) = ok r →
    bitsNeeded fp t .nan = ok r
  | .integer _, _, _, h => by simpa only [bitsNeeded] using h
  | .xorWrapper _, _, _, h => by simpa only [bitsNeeded] using h
  | .notSet, _, _, h => by simp only [bitsNeeded] at h; cases h
  | .intModN b m, σ, r, h => by
    simp only [bitsNeeded, bind_eq_ok] at h ⊢
    obtain ⟨N, h1, n, h2, h3⟩ := h
    exact ⟨N, h1, n, getNumBytesRequired_nan h2, h3⟩
  | .tuple els, σ, r, h => by
    simp only [bitsNeeded] at h ⊢
    obtain ⟨⟨im, nMod, nOther⟩, h1, h⟩ := bind_eq_ok.mp h
    dsimp only at h
    obtain ⟨other, h2, h⟩ := bind_eq_ok.mp h
    obtain ⟨mods, h3, h⟩ := bind_eq_ok.mp h
    rw [h1, bind_ok]
    dsimp only
    rw [show Sec.add .nan (fp.log2 nOther) = .nan from rfl,
      bitsNeededFirst_nan fp els nOther _ _ _ h2, bind_ok]
    refine bind_eq_ok.mpr ⟨mods, ?_, h⟩
    split at h3
    · simp only [bind_eq_ok] at h3 ⊢
      obtain ⟨N, g1, n, g2, g3⟩ := h3
      exact ⟨N, g1, n, getNumBytesRequired_nan g2, g3⟩
    · exact h3
theorem bitsNeededFirst_nan (fp : FpEnv) : (els : List ValueType) → (n : Nat) → (σ : Rat) → (a r : Int) →
    bitsNeededFirst fp els n (.val σ) a = ok r → bitsNeededFirst fp els n .nan a = ok r
  | _, 0, _, _, _, h => by simpa only [bitsNeededFirst] using h
  | [], _ + 1, _, _, _, h => by simp only [bitsNeededFirst] at h; cases h
  | el :: els, n + 1, σ, a, r, h => by
    simp only [bitsNeededFirst, bind_eq_ok] at h ⊢
    obtain ⟨b, h1, c, h2, h3⟩ := h
    exact ⟨b, bitsNeeded_nan fp el σ b h1, c, h2, bitsNeededFirst_nan fp els n σ c r h3⟩
end

/-- C74, for NaN: no comparison with it is true, so `BitsNeeded` itself accepts it for every type that can be used with
some number. It is the check of the parameters that refuses NaN. -/
theorem C74_nan (fp : FpEnv) (t : ValueType) (c : Canon) (hc : canon t = some c) (hv : ValidType t)
    (hr : c.reserved < 2 ^ 31) (σ : Rat) (ht : Tolerates fp.level fp.log2 σ c) :
    bitsNeeded fp t .nan = ok (c.reserved : Int) ∧
    ∀ params : List DpfParameters, (∃ p ∈ params, p.securityParameter = .nan) →
      ∀ d, Dpf.createIncremental fp params ≠ ok d := by
  refine ⟨bitsNeeded_nan fp t σ _ ((C74_reserved fp t c hc hv hr σ).1 ht), ?_⟩
  rintro params ⟨p, hp, hnan⟩ d hd
  obtain ⟨hpv, _, _⟩ := createIncremental_spec hd
  obtain ⟨s, hs, _⟩ := (create_spec hpv).1.security p hp
  rw [hnan] at hs
  cases hs

/-- C74 on an example: NaN passes for a modulus of 60 bits, for which 80 does not. -/
example : bitsNeeded ⟨fun _ _ => 70, fun _ => 0⟩ (.intModN 64 (.u64 (2 ^ 60))) .nan = ok 128 ∧
    bitsNeeded ⟨fun _ _ => 70, fun _ => 0⟩ (.intModN 64 (.u64 (2 ^ 60))) (.val 80) = err .invalidArgument :=
  ⟨(C74_nan ⟨fun _ _ => 70, fun _ => 0⟩ (.intModN 64 (.u64 (2 ^ 60))) (.intModN 64 (2 ^ 60)) (by rfl)
    ⟨by simp [ValidBits], Or.inr ⟨_, rfl, by decide +kernel⟩⟩ (by decide) 1 (.intModN _ _ _ (by decide +kernel))).1, by decide +kernel⟩

/-- C74 on an example: 128 bits are reserved for a number modulo 10 up to a security parameter of 80. -/
theorem exTolerates (σ : Rat) : Tolerates (fun _ _ => 80) (fun _ => 0) σ (.intModN 32 10) ↔ σ ≤ 80 := by
  constructor
  · intro h; cases h; assumption
  · exact fun h => .intModN _ _ _ h
example (σ : Rat) (h : σ ≤ 80) : bitsNeeded exFp (.intModN 32 (.u64 10)) (.val σ) = ok 128 :=
  (C74_reserved exFp (.intModN 32 (.u64 10)) (.intModN 32 10) rfl ⟨by simp [ValidBits], Or.inr ⟨_, rfl, by decide +kernel⟩⟩
    (by decide) σ).1 ((exTolerates σ).mpr h)
example : Tolerates (fun _ _ => 80) (fun _ => 0) 40 (.intModN 32 10) :=
  C74_monotone _ _ 80 40 _ (by decide) ((exTolerates 80).mpr (by decide))
/-- C74 on an example: a DPF with 2^30 elements. -/
theorem exValid (log : Int) (h0 : 0 ≤ log) (h1 : log ≤ 128) : ValidParams [⟨log, some (.intModN 32 (.u64 10)), .val 0⟩] := by
  refine ⟨by simp, ?_, by simp, ?_, ?_⟩ <;> intro p hp <;> rw [List.mem_singleton.mp hp]
  · exact ⟨h0, h1⟩
  · exact ⟨_, rfl, by simp [ValidBits], Or.inr ⟨_, rfl, by decide +kernel⟩⟩
  · exact ⟨0, rfl, by decide, by decide⟩
example : ∃ d, Dpf.createIncremental exFp [⟨30, some (.intModN 32 (.u64 10)), .val 0⟩] = ok d := by
  refine (C74_create_partial exFp _ (exValid 30 (by decide) (by decide)) ?_).1.mpr ?_
  · intro p hp
    rw [List.mem_singleton.mp hp]
    exact ⟨.intModN 32 10, rfl, by decide, by decide⟩
  · intro p hp c σ hc hσ
    rw [List.mem_singleton.mp hp] at hc hσ ⊢
    cases hσ
    cases hc
    exact (exTolerates _).mpr (by norm_num)
/-- C16 on the same parameters. -/
example : ∃ d, Dpf.createIncremental exFp [⟨30, some (.intModN 32 (.u64 10)), .val 0⟩] = ok d := by
  refine C16_accepts_bits exFp _ (exValid 30 (by decide) (by decide)) ?_
  intro p hp
  rw [List.mem_singleton.mp hp]
  exact ⟨⟨128, by decide +kernel, by decide, by decide⟩, 128, by decide, by decide +kernel⟩
/-- C74 on an example: a DCF over 2^41 points exists, but none over 2^42. -/
example : ∃ d, Dcf.create exFp ⟨41, some (.intModN 32 (.u64 10)), .val 0⟩ = ok d :=
  (C74_dcf_partial exFp ⟨41, some (.intModN 32 (.u64 10)), .val 0⟩ (by decide) (by decide) _ rfl
    ⟨by simp [ValidBits], Or.inr ⟨_, rfl, by decide +kernel⟩⟩ (.intModN 32 10) rfl (by decide) (by decide)).1.mpr
    ((exTolerates _).mpr (by norm_num))
example : ¬ ∃ d, Dcf.create exFp ⟨42, some (.intModN 32 (.u64 10)), .val 0⟩ = ok d := fun h =>
  absurd ((exTolerates _).mp ((C74_dcf_partial exFp ⟨42, some (.intModN 32 (.u64 10)), .val 0⟩ (by decide) (by decide) _ rfl
    ⟨by simp [ValidBits], Or.inr ⟨_, rfl, by decide +kernel⟩⟩ (.intModN 32 10) rfl (by decide) (by decide)).1.mp h)) (by norm_num)

end Verif
