import Verif.Lemmas.Interchange
import Verif.Lemmas.Accept
import Verif.Spec.Tolerates
import Verif.Lemmas.Doubles
/-! Security parameters a value type can be used with. -/
namespace Verif
open Res Spec

/-- The security levels of the specification. -/
def FpEnv.level (fp : FpEnv) (n N : Nat) : Rat := fp.secLevel n (BitVec.ofNat 128 N)

theorem Canon.isMod_false {el : ValueType} {c : Canon} (h : canon el = some c) (hc : c.isMod = false) :
    ∀ b m, el ≠ .intModN b m := by
  rintro b m rfl
  simp only [canon, Option.map_eq_some_iff] at h
  obtain ⟨_, _, rfl⟩ := h
  simp [Canon.isMod] at hc

theorem Canon.isMod_true {el : ValueType} {c : Canon} (h : canon el = some c) (hc : c.isMod = true) :
    ∃ b m N, el = .intModN b m ∧ intMsg m = some N ∧ c = .intModN b N := by
  cases c with
  | intModN b N =>
    cases el with
    | intModN b' m =>
      simp only [canon, Option.map_eq_some_iff, Canon.intModN.injEq] at h
      obtain ⟨n, hn, rfl, rfl⟩ := h
      exact ⟨_, _, _, rfl, hn, rfl⟩
    | _ => simp [canon] at h
  | _ => simp [Canon.isMod] at hc

theorem countTuple_some (els : List ValueType) (cs : List Canon) (h : canons els = some cs) (b : Int) (m : IntegerP)
    (N : Nat) (hN : intMsg m = some N) (x y : Nat) :
    ((∀ e ∈ cs, e.isMod = true → e = .intModN b N) →
      countTuple els (some (.intModN b m)) x y =
        ok (some (.intModN b m), x + cs.countP (·.isMod), y + cs.countP fun e => !e.isMod)) ∧
    ((¬ ∀ e ∈ cs, e.isMod = true → e = .intModN b N) →
      countTuple els (some (.intModN b m)) x y = err .unimplemented) := by
  induction els generalizing cs x y with
  | nil =>
    simp only [canons, Option.some.injEq] at h
    subst h
    exact ⟨fun _ => rfl, fun h => absurd (by simp) h⟩
  | cons el els ih =>
    obtain ⟨c, cs', rfl, hc, hcs⟩ := canons_cons h
    cases hm : c.isMod with
    | false =>
      rw [countTuple_cons_other (Canon.isMod_false hc hm)]
      obtain ⟨i1, i2⟩ := ih cs' hcs x (y + 1)
      refine ⟨fun ha => ?_, fun ha => ?_⟩
      · rw [i1 fun e he => ha e (by simp [he])]
        simp only [List.countP_cons, hm, Bool.not_false, ↓reduceIte, Bool.false_eq_true]
        congr 3
        omega
      · refine i2 fun ha' => ha fun e he hem => ?_
        rcases List.mem_cons.mp he with rfl | he
        · rw [hm] at hem; cases hem
        · exact ha' e he hem
    | true =>
      obtain ⟨b', m', N', rfl, hm', rfl⟩ := Canon.isMod_true hc hm
      obtain ⟨r, hr, hri⟩ := valueTypesAreEqual_canon (.intModN b' m') (.intModN b m) _ (.intModN b N) hc
        (by simp [canon, hN])
      have e0 : countTuple (.intModN b' m' :: els) (some (.intModN b m)) x y =
          (valueTypesAreEqual (.intModN b' m') (.intModN b m) >>= fun eq =>
            failIf (eq = false) .unimplemented >>= fun _ => countTuple els (some (.intModN b m)) (x + 1) y) := rfl
      rw [e0, hr, bind_ok]
      obtain ⟨i1, i2⟩ := ih cs' hcs (x + 1) y
      cases r with
      | false =>
        rw [failIf_true rfl]
        refine ⟨fun ha => ?_, fun _ => rfl⟩
        have := ha _ (by simp) hm
        have := hri.mpr this
        cases this
      | true =>
        rw [failIf_false (by simp), bind_ok]
        refine ⟨fun ha => ?_, fun ha => ?_⟩
        · rw [i1 fun e he => ha e (by simp [he])]
          simp only [List.countP_cons, hm, Bool.not_true, ↓reduceIte, Bool.false_eq_true]
          congr 3
          omega
        · refine i2 fun ha' => ha fun e he hem => ?_
          rcases List.mem_cons.mp he with rfl | he
          · exact hri.mp rfl
          · exact ha' e he hem

/-- The outcome of the first loop: the integers modulo N agree, are counted, and the first of them is found. -/
theorem countTuple_exact (els : List ValueType) (cs : List Canon) (h : canons els = some cs) (y : Nat) :
    (cs.find? (·.isMod) = none ∧ countTuple els none 0 y = ok (none, 0, y + cs.countP fun e => !e.isMod)) ∨
    ∃ b m N, intMsg m = some N ∧ cs.find? (·.isMod) = some (.intModN b N) ∧ .intModN b m ∈ els ∧
      ((∀ e ∈ cs, e.isMod = true → e = .intModN b N) → countTuple els none 0 y =
        ok (some (.intModN b m), cs.countP (·.isMod), y + cs.countP fun e => !e.isMod)) ∧
      ((¬ ∀ e ∈ cs, e.isMod = true → e = .intModN b N) → countTuple els none 0 y = err .unimplemented) := by
  induction els generalizing cs y with
  | nil =>
    simp only [canons, Option.some.injEq] at h
    subst h
    exact .inl ⟨rfl, rfl⟩
  | cons el els ih =>
    obtain ⟨c, cs', rfl, hc, hcs⟩ := canons_cons h
    cases hm : c.isMod with
    | false =>
      rw [countTuple_cons_other (Canon.isMod_false hc hm)]
      have e1 : (c :: cs').countP (·.isMod) = cs'.countP (·.isMod) := by simp [hm]
      have e2 : (c :: cs').countP (fun e => !e.isMod) = cs'.countP (fun e => !e.isMod) + 1 := by simp [hm]
      have e3 : (c :: cs').find? (·.isMod) = cs'.find? (·.isMod) := by simp [hm]
      rw [e1, e2, e3]
      rcases ih cs' hcs (y + 1) with ⟨i1, i2⟩ | ⟨b, m, N, i1, i2, i3, i4, i5⟩
      · refine .inl ⟨i1, ?_⟩
        rw [i2]
        congr 3
        omega
      · refine .inr ⟨b, m, N, i1, i2, List.mem_cons_of_mem _ i3, fun ha => ?_, fun ha => ?_⟩
        · rw [i4 fun e he => ha e (by simp [he])]
          congr 3
          omega
        · refine i5 fun ha' => ha fun e he hem => ?_
          rcases List.mem_cons.mp he with rfl | he
          · rw [hm] at hem; cases hem
          · exact ha' e he hem
    | true =>
      obtain ⟨b, m, N, rfl, hN, rfl⟩ := Canon.isMod_true hc hm
      obtain ⟨i1, i2⟩ := countTuple_some els cs' hcs b m N hN 1 y
      refine .inr ⟨b, m, N, hN, by simp [hm], by simp, fun ha => ?_, fun ha => ?_⟩
      · show countTuple els (some (.intModN b m)) 1 y = _
        rw [i1 fun e he => ha e (by simp [he])]
        simp only [List.countP_cons, hm, Bool.not_true, ↓reduceIte, Bool.false_eq_true]
        congr 3
        omega
      · refine i2 fun ha' => ha fun e he hem => ?_
        rcases List.mem_cons.mp he with rfl | he
        · rfl
        · exact ha' e he hem

theorem ValidTypes.mem {els : List ValueType} (h : ValidTypes els) {el : ValueType} (hel : el ∈ els) :
    ValidType el := by
  induction els with
  | nil => cases hel
  | cons a els ih =>
    rcases List.mem_cons.mp hel with rfl | hel
    · exact h.1
    · exact ih h.2 hel

/-- Refusals of a security parameter. -/
def Refused {α : Type} (r : Res α) : Prop := r = err .invalidArgument ∨ r = err .unimplemented

theorem Refused.bind {α β : Type} {r : Res α} (h : Refused r) (f : α → Res β) : Refused (r >>= f) := by
  rcases h with h | h <;> rw [h]
  · exact .inl rfl
  · exact .inr rfl

theorem validBits_range {b : Int} (h : ValidBits b) : 1 ≤ b ∧ b ≤ 128 := by
  unfold ValidBits at h
  simp only [List.mem_cons, List.not_mem_nil, or_false] at h
  omega

theorem getNumBytesRequired_exact (fp : FpEnv) (n : Nat) (b : Int) (m : IntegerP) (N : Nat) (hN : intMsg m = some N)
    (hv : ValidType (.intModN b m)) (hn : 1 ≤ n) (hr : 16 + (b.toNat + 7) / 8 * (n - 1) < 2 ^ 28) (σ : Rat) :
    (σ ≤ fp.level n N → (valueIntegerToUint128 m >>= fun modulus =>
      IntModN.getNumBytesRequired fp n b modulus (.val σ)) = ok ((16 + (b.toNat + 7) / 8 * (n - 1) : Nat) : Int)) ∧
    (¬ σ ≤ fp.level n N → (valueIntegerToUint128 m >>= fun modulus =>
      IntModN.getNumBytesRequired fp n b modulus (.val σ)) = err .invalidArgument) := by
  rw [valueInteger_of_intMsg hN, bind_ok, getNumBytesRequired_general]
  obtain ⟨hb1, hb2⟩ := validBits_range hv.1
  have hlt := intMsg_lt hN
  have hmod : (BitVec.ofNat 128 N).toNat = N := by rw [BitVec.toNat_ofNat, Nat.mod_eq_of_lt hlt]
  have hNb : N ≤ 2 ^ b.toNat := by
    rcases hv.2 with rfl | ⟨v, h1, h2⟩
    · exact Nat.le_of_lt hlt
    · rw [valueInteger_eq_ok, hN, Option.some.injEq] at h1
      omega
  have h1 : 1 * (n - 1) ≤ (b.toNat + 7) / 8 * (n - 1) := Nat.mul_le_mul_right _ (by omega)
  have e1 : (b + 7) / 8 = (((b.toNat + 7) / 8 : Nat) : Int) := by omega
  have e2 : ((n : Int) - 1) = ((n - 1 : Nat) : Int) := by omega
  have e3 : (16 + (b + 7) / 8 * ((n : Int) - 1)) = ((16 + (b.toNat + 7) / 8 * (n - 1) : Nat) : Int) := by
    rw [e1, e2]; simp
  rw [hmod, e3, if_neg (by omega), if_neg (by omega), if_neg (c := (2 : Int) ^ 31 ≤ _) (by omega)]
  unfold FpEnv.level IntModN.Sec.gt
  refine ⟨fun h => ?_, fun h => ?_⟩
  · rw [if_neg]
    simpa [Rat.not_lt] using h
  · rw [if_pos]
    simpa [Rat.not_le] using h

theorem reservedEach_length (cs : List Canon) : (Canon.reservedEach cs).length = cs.length := by
  induction cs with
  | nil => rfl
  | cons c cs ih => simp [Canon.reservedEach, ih]

theorem countP_add_not (cs : List Canon) :
    cs.countP (·.isMod) + cs.countP (fun e => !e.isMod) = cs.length := by
  induction cs with
  | nil => rfl
  | cons c cs ih => cases h : c.isMod <;> simp [h] <;> omega

mutual
theorem bitsNeeded_exact (fp : FpEnv) : (t : ValueType) → (c : Canon) → canon t = some c → ValidType t →
    c.reserved < 2 ^ 31 → (σ : Rat) →
    (Tolerates fp.level fp.log2 σ c → bitsNeeded fp t (.val σ) = ok (c.reserved : Int)) ∧
    (¬ Tolerates fp.level fp.log2 σ c → Refused (bitsNeeded fp t (.val σ)))
  | .notSet, c, h, _, _, _ => by simp [canon] at h
  | .integer b, c, h, hv, _, σ => by
    simp only [canon, Option.some.injEq] at h
    subst h
    have := validBits_range hv
    refine ⟨fun _ => ?_, fun h => absurd (.integer σ b) h⟩
    rw [bitsNeeded, Canon.reserved, Int.toNat_of_nonneg (by omega)]
  | .xorWrapper b, c, h, hv, _, σ => by
    simp only [canon, Option.some.injEq] at h
    subst h
    have := validBits_range hv
    refine ⟨fun _ => ?_, fun h => absurd (.xorWrapper σ b) h⟩
    rw [bitsNeeded, Canon.reserved, Int.toNat_of_nonneg (by omega)]
  | .intModN b m, c, h, hv, _, σ => by
    simp only [canon, Option.map_eq_some_iff] at h
    obtain ⟨N, hN, rfl⟩ := h
    obtain ⟨h1, h2⟩ := getNumBytesRequired_exact fp 1 b m N hN hv (by omega) (by simp) σ
    have e : bitsNeeded fp (.intModN b m) (.val σ) = ((valueIntegerToUint128 m >>= fun modulus =>
        IntModN.getNumBytesRequired fp (1 : Nat) b modulus (.val σ)) >>= fun n => ok (8 * n)) := by
      rw [bitsNeeded, Res.bind_assoc]
      rfl
    rw [e]
    refine ⟨fun h => ?_, fun h => ?_⟩
    · cases h with
      | intModN _ _ _ h => rw [h1 h]; rfl
    · rw [h2 fun h' => h (.intModN σ b N h')]
      exact .inl rfl
  | .tuple els, c, h, hv, hr, σ => by
    simp only [canon, Option.map_eq_some_iff] at h
    obtain ⟨cs, hcs, rfl⟩ := h
    rw [Canon.reserved] at hr ⊢
    have hlen := canons_length hcs
    have hcount := countP_add_not cs
    rw [bitsNeeded]
    rcases countTuple_exact els cs hcs 0 with ⟨hf, hc⟩ | ⟨b, m, N, hN, hf, hmem, hc1, hc2⟩
    · rw [hf, show reservedMods _ none = 0 from rfl] at hr ⊢
      rw [Nat.zero_add] at hr
      rw [hc, bind_ok, Nat.zero_add]
      dsimp only
      obtain ⟨f1, f2⟩ := bitsNeededFirst_exact fp els cs hcs hv (cs.countP fun e => !e.isMod) (by omega) 0
        (by omega) (roundDouble (σ + fp.log2 (cs.countP fun e => !e.isMod)))
      have hno : ∀ e ∈ cs, e.isMod = false := by
        intro e he
        have := List.find?_eq_none.mp hf e he
        simpa using this
      have hz : cs.countP (·.isMod) = 0 := by
        rw [List.countP_eq_zero]
        intro e he
        simp [hno e he]
      refine ⟨fun h => ?_, fun h => ?_⟩
      · cases h with
        | tuple _ _ k n b N hk hn hall hlev hrec =>
          subst hk hn
          have := f1 hrec
          unfold Sec.add
          simp only [Int.cast_ofNat_Int, Nat.zero_add] at this
          rw [this, bind_ok, bind_ok, intRange_of (by omega) (by omega)]
          simp
      · refine (f2 fun h' => h ?_).bind _
        exact .tuple σ cs _ _ 0 0 rfl rfl (fun e he hm => by rw [hno e he] at hm; cases hm) (fun h0 => by omega) h'
    · rw [hf, reservedMods] at hr ⊢
      by_cases hall : ∀ e ∈ cs, e.isMod = true → e = .intModN b N
      · rw [hc1 hall, bind_ok, Nat.zero_add]
        dsimp only
        obtain ⟨f1, f2⟩ := bitsNeededFirst_exact fp els cs hcs hv (cs.countP fun e => !e.isMod) (by omega) 0
          (by omega) (roundDouble (σ + fp.log2 (cs.countP fun e => !e.isMod)))
        have hpos : 1 ≤ cs.countP (·.isMod) := by
          have := List.mem_of_find?_eq_some hf
          exact List.countP_pos_iff.mpr ⟨_, this, rfl⟩
        have hg := getNumBytesRequired_exact fp (cs.countP (·.isMod)) b m N hN (ValidTypes.mem hv hmem) hpos
        generalize 16 + (b.toNat + 7) / 8 * (cs.countP (·.isMod) - 1) = q at hg hr ⊢
        obtain ⟨g1, g2⟩ := hg (by omega) σ
        have e (mods : Res Int) : (valueIntegerToUint128 m >>= fun modulus =>
            IntModN.getNumBytesRequired fp (cs.countP (·.isMod) : Nat) b modulus (.val σ) >>= fun n =>
              intRange (n * 8)) = ((valueIntegerToUint128 m >>= fun modulus =>
            IntModN.getNumBytesRequired fp (cs.countP (·.isMod) : Nat) b modulus (.val σ)) >>= fun n =>
              intRange (n * 8)) := by
          rw [Res.bind_assoc]
        rw [e (ok 0)]
        unfold Sec.add
        by_cases hrec : ∀ e ∈ cs.take (cs.countP fun e => !e.isMod),
            Tolerates fp.level fp.log2 (roundDouble (σ + fp.log2 (cs.countP fun e => !e.isMod))) e
        · have := f1 hrec
          simp only [Int.cast_ofNat_Int, Nat.zero_add] at this
          rw [this, bind_ok]
          by_cases hl : σ ≤ fp.level (cs.countP (·.isMod)) N
          · refine ⟨fun _ => ?_, fun h => absurd (.tuple σ cs _ _ b N rfl rfl hall (fun _ => hl) hrec) h⟩
            rw [g1 hl, bind_ok, intRange_of (by omega) (by omega), bind_ok, intRange_of (by omega) (by omega)]
            congr 1
            omega
          · rw [g2 hl]
            refine ⟨fun h => ?_, fun _ => .inl rfl⟩
            cases h with
            | tuple _ _ k n b' N' hk hn hall' hlev _ =>
              subst hk hn
              have := hall' _ (List.mem_of_find?_eq_some hf) rfl
              cases this
              exact absurd (hlev (by omega)) hl
        · refine ⟨fun h => ?_, fun _ => (f2 hrec).bind _⟩
          cases h with
          | tuple _ _ k n b' N' hk hn _ _ hrec' =>
            subst hk hn
            exact absurd hrec' hrec
      · rw [hc2 hall]
        refine ⟨fun h => ?_, fun _ => .inr rfl⟩
        cases h with
        | tuple _ _ k n b' N' hk hn hall' _ _ =>
          have := hall' _ (List.mem_of_find?_eq_some hf) rfl
          cases this
          exact absurd hall' hall
theorem bitsNeededFirst_exact (fp : FpEnv) : (els : List ValueType) → (cs : List Canon) → canons els = some cs →
    ValidTypes els → (n : Nat) → n ≤ els.length → (acc : Nat) →
    acc + ((Canon.reservedEach cs).take n).sum < 2 ^ 31 → (σ : Rat) →
    ((∀ e ∈ cs.take n, Tolerates fp.level fp.log2 σ e) →
      bitsNeededFirst fp els n (.val σ) (acc : Int) = ok ((acc + ((Canon.reservedEach cs).take n).sum : Nat) : Int)) ∧
    ((¬ ∀ e ∈ cs.take n, Tolerates fp.level fp.log2 σ e) → Refused (bitsNeededFirst fp els n (.val σ) (acc : Int)))
  | els, cs, _, _, 0, _, acc, _, σ => by
    refine ⟨fun _ => ?_, fun h => absurd (by simp) h⟩
    cases els <;> simp [bitsNeededFirst]
  | [], _, _, _, n + 1, hn, _, _, _ => by simp at hn
  | el :: els, cs, h, hv, n + 1, hn, acc, hr, σ => by
    obtain ⟨c, cs', rfl, hc, hcs⟩ := canons_cons h
    have es : ((Canon.reservedEach (c :: cs')).take (n + 1)).sum =
        c.reserved + ((Canon.reservedEach cs').take n).sum := by
      rw [Canon.reservedEach, List.take_succ_cons, List.sum_cons]
    rw [es] at hr ⊢
    obtain ⟨e1, e2⟩ := bitsNeeded_exact fp el c hc hv.1 (by omega) σ
    obtain ⟨r1, r2⟩ := bitsNeededFirst_exact fp els cs' hcs hv.2 n (by simpa using hn) (acc + c.reserved) (by omega) σ
    rw [bitsNeededFirst, List.take_succ_cons]
    by_cases hc : Tolerates fp.level fp.log2 σ c
    · rw [e1 hc, bind_ok, intRange_of (by omega) (by omega), bind_ok, ← Int.natCast_add, ← Nat.add_assoc]
      refine ⟨fun h => r1 fun e he => h e (List.mem_cons_of_mem _ he), fun h => r2 fun h' => h fun e he => ?_⟩
      rcases List.mem_cons.mp he with rfl | he
      · exact hc
      · exact h' e he
    · exact ⟨fun h => absurd (h c (by simp)) hc, fun _ => (e2 hc).bind _⟩
end

theorem Spec.Tolerates.mono {level : Nat → Nat → Rat} {log2 : Nat → Rat} {σ : Rat} {c : Canon}
    (h : Tolerates level log2 σ c) : ∀ σ' : Rat, σ' ≤ σ → Tolerates level log2 σ' c := by
  induction h with
  | integer σ b => exact fun σ' _ => .integer σ' b
  | xorWrapper σ b => exact fun σ' _ => .xorWrapper σ' b
  | intModN σ b N h => exact fun σ' hle => .intModN σ' b N (Rat.le_trans hle h)
  | tuple σ els k n b N hk hn hall hlev _ ih =>
    exact fun σ' hle => .tuple σ' els k n b N hk hn hall (fun h => Rat.le_trans hle (hlev h))
      fun e he => ih e he _ (roundDouble_mono (Rat.add_le_add_right.mpr hle))

theorem foldRes_refused {α σ : Type} {f : σ → α → Res σ} : {l : List α} →
    (∀ x ∈ l, (∀ s, ∃ v, f s x = ok v) ∨ ∀ s, Refused (f s x)) → (∃ x ∈ l, ∀ s, Refused (f s x)) →
    (s : σ) → Refused (foldRes f s l)
  | [], _, h, _ => by obtain ⟨_, h, _⟩ := h; cases h
  | a :: l, ha, h, s => by
    rw [foldRes_cons]
    rcases ha a (by simp) with e | e
    · obtain ⟨v, e'⟩ := e s
      rw [e', bind_ok]
      obtain ⟨x, hx, hu⟩ := h
      rcases List.mem_cons.mp hx with rfl | hx
      · have := hu s
        rw [e'] at this
        rcases this with h | h <;> cases h
      · exact foldRes_refused (fun y hy => ha y (List.mem_cons_of_mem _ hy)) ⟨x, hx, hu⟩ v
    · exact (e s).bind _

/-- The security parameter used for a level: by default 40 plus the logarithm of the domain size. -/
theorem withDefaultSecurity_val {p : DpfParameters} {s : Rat} (h : p.securityParameter = .val s) :
    (withDefaultSecurity p).securityParameter = .val (if s = 0 then 40 + p.logDomainSize else s) := by
  unfold withDefaultSecurity
  rw [h]
  by_cases h0 : s = 0
  · subst h0; rfl
  · simp [Sec.isZero, h0, h]

/-- Sizes of output types that creation can handle. -/
def SizeOk (p : DpfParameters) (c : Canon) : Prop :=
  canon p.vt = some c ∧ 0 < c.reserved ∧ c.reserved + 127 < 2 ^ 31

theorem createIncremental_exact (fp : FpEnv) {params : List DpfParameters} (hv : ValidParams params)
    (hs : ∀ p ∈ params, ∃ c, SizeOk p c) :
    ((∀ p ∈ params, ∀ c σ, canon p.vt = some c → p.securityParameter = .val σ →
      Tolerates fp.level fp.log2 (if σ = 0 then 40 + p.logDomainSize else σ) c) →
      ∃ d, Dpf.createIncremental fp params = ok d) ∧
    ((¬ ∀ p ∈ params, ∀ c σ, canon p.vt = some c → p.securityParameter = .val σ →
      Tolerates fp.level fp.log2 (if σ = 0 then 40 + p.logDomainSize else σ) c) →
      Refused (Dpf.createIncremental fp params)) := by
  have hvt : ∀ p ∈ params, ValidType p.vt := by
    intro p hp
    obtain ⟨t, ht, hvt⟩ := hv.types p hp
    simpa [DpfParameters.vt, ht] using hvt
  refine ⟨fun h => ?_, fun h => ?_⟩
  · refine createIncremental_ok fp hv fun p hp => ?_
    obtain ⟨c, hc, hpos, hr⟩ := hs p hp
    obtain ⟨σ, hσ, h0, _⟩ := hv.security p hp
    have ht := h p hp c σ hc hσ
    rw [withDefaultSecurity_val hσ, hσ]
    refine ⟨⟨_, (bitsNeeded_exact fp p.vt c hc (hvt p hp) (by omega) σ).1 (ht.mono σ ?_), by omega, by omega⟩,
      _, (bitsNeeded_exact fp p.vt c hc (hvt p hp) (by omega) _).1 ht, by omega⟩
    split
    · rename_i h0'
      have := (hv.log_range p hp).1
      subst h0'
      have h40 : (0 : Rat) ≤ 40 := by decide
      have hl : (0 : Rat) ≤ (p.logDomainSize : Rat) := by exact_mod_cast this
      exact Rat.add_nonneg h40 hl
    · exact Rat.le_refl
  · unfold Dpf.createIncremental ProtoValidator.create
    rw [(validateParameters_iff params).mpr hv, bind_ok]
    dsimp only
    refine Refused.bind (Refused.bind (foldRes_refused ?_ ?_ _) _) _
    · intro x hx
      obtain ⟨p, hp, rfl⟩ := List.mem_map.mp hx
      obtain ⟨c, hc, hpos, hr⟩ := hs p hp
      obtain ⟨σ, hσ, h0, _⟩ := hv.security p hp
      have e : (withDefaultSecurity p).vt = p.vt := by unfold DpfParameters.vt; rw [withDefaultSecurity_vt]
      obtain ⟨b1, b2⟩ := bitsNeeded_exact fp p.vt c hc (hvt p hp) (by omega)
        (if σ = 0 then 40 + p.logDomainSize else σ)
      by_cases ht : Tolerates fp.level fp.log2 (if σ = 0 then 40 + p.logDomainSize else σ) c
      · refine .inl fun s => ?_
        obtain ⟨a, b, n⟩ := s
        obtain ⟨lb, hlb⟩ := ceilLog2_ok (b := (c.reserved : Int)) (by omega)
        unfold createStep
        dsimp only
        rw [e, withDefaultSecurity_val hσ, b1 ht, bind_ok, hlb, bind_ok]
        exact ⟨_, rfl⟩
      · refine .inr fun s => ?_
        obtain ⟨a, b, n⟩ := s
        unfold createStep
        dsimp only
        rw [e, withDefaultSecurity_val hσ]
        exact (b2 ht).bind _
    · apply Classical.byContradiction
      intro hno
      refine h fun p hp c σ hc hσ => Classical.byContradiction fun ht => hno
        ⟨_, List.mem_map.mpr ⟨p, hp, rfl⟩, fun s => ?_⟩
      obtain ⟨c', hc', hpos, hr⟩ := hs p hp
      rw [hc] at hc'
      cases hc'
      have e : (withDefaultSecurity p).vt = p.vt := by unfold DpfParameters.vt; rw [withDefaultSecurity_vt]
      obtain ⟨a, b, n⟩ := s
      unfold createStep
      dsimp only
      rw [e, withDefaultSecurity_val hσ]
      exact ((bitsNeeded_exact fp p.vt c hc (hvt p hp) (by omega) _).2 ht).bind _

end Verif
