import Verif.Model.Doubles
import Verif.Lemmas.SyntheticRun
/-!
# C75: the benchmark program for hierarchical evaluation
-/
namespace Verif
open Res Spec SyntheticData

theorem sorted_unique : (xs ys : List U128) → xs.Pairwise (· < ·) → ys.Pairwise (· < ·) → (∀ x, x ∈ xs ↔ x ∈ ys) →
    xs = ys
  | [], [], _, _, _ => rfl
  | [], y :: ys, _, _, h => by have := (h y).mpr (by simp); cases this
  | x :: xs, [], _, _, h => by have := (h x).mp (by simp); cases this
  | x :: xs, y :: ys, h1, h2, h => by
    obtain ⟨a1, a2⟩ := List.pairwise_cons.mp h1
    obtain ⟨b1, b2⟩ := List.pairwise_cons.mp h2
    have e : x = y := by
      rcases List.mem_cons.mp ((h x).mp (by simp)) with e | e
      · exact e
      · rcases List.mem_cons.mp ((h y).mpr (by simp)) with e' | e'
        · exact e'.symm
        · have := a1 y e'
          have := b1 x e
          simp only [BitVec.lt_def] at *
          omega
    subst e
    rw [sorted_unique xs ys a2 b2 ?_]
    intro z
    constructor
    · intro hz
      rcases List.mem_cons.mp ((h z).mp (by simp [hz])) with e | e
      · subst e; have := a1 z hz; simp [BitVec.lt_def] at this
      · exact e
    · intro hz
      rcases List.mem_cons.mp ((h z).mpr (by simp [hz])) with e | e
      · subst e; have := b1 z hz; simp [BitVec.lt_def] at this
      · exact e

theorem toSet_eq {xs ys : List U128} (h : ys.Pairwise (· < ·)) (e : ∀ x, x ∈ ys ↔ x ∈ xs) : toSet xs = ys :=
  sorted_unique _ _ (toSet_sorted xs) h fun x => by rw [toSet_mem, e]

/-- C75, prefixes: for every length from 1 to `L`, the program finds the prefixes of that length, each once and in
increasing order. The entry for length 0 is empty. -/
theorem C75_prefixes (xs : List U128) (L : Nat) (hL : 0 < L) :
    (computePrefixes (toSet xs) L).length = L + 1 ∧ (computePrefixes (toSet xs) L)[0]? = some [] ∧
    ∀ i, 1 ≤ i → i ≤ L → ∃ p, (computePrefixes (toSet xs) L)[i]? = some p ∧ IsPrefixes xs L i p := by
  obtain ⟨h1, h2⟩ := computePrefixes_get (toSet xs) L
  refine ⟨h1, by rw [h2 0 (by omega), if_pos ⟨rfl, hL⟩], ?_⟩
  intro i hi hi'
  refine ⟨_, by rw [h2 i hi', if_neg (by omega)], dropBits_sorted (toSet_sorted xs) _, ?_⟩
  intro y
  rw [dropBits_mem]
  constructor
  · rintro ⟨x, hx, rfl⟩; exact ⟨x, (toSet_mem _ _).mp hx, rfl⟩
  · rintro ⟨x, hx, rfl⟩; exact ⟨x, (toSet_mem _ _).mpr hx, rfl⟩

/-- C75 on four numbers of three bits, one of them twice. -/
example : computePrefixes (toSet [6, 1, 7, 1, 0]) 3 = [[], [0, 1], [0, 3], [0, 1, 6, 7]] := by decide +kernel

/-- C75, levels: if floating-point errors are harmless, the choice of levels ends after at most `L` rounds with
positive, ascending levels, of which the last is `L`; the first level and every expansion have at most `n * f`
points, where `n` is the number of nonzeros and `f` the expansion factor. -/
theorem C75_levels (D : Doubles) (L f : Nat) (hL : 2 ≤ L) (xs ys : List U128) (hys : ys.Pairwise (· < ·))
    (hsame : ∀ x, x ∈ ys ↔ x ∈ xs) (hne : xs ≠ []) (hn : ys.length < 2 ^ 31) (H : Harmless D L ys.length f) :
    ∃ levels : List Nat, (∀ fuel, L ≤ fuel → computeLevelsToEvaluate D fuel (computePrefixes (toSet xs) L) L f =
        some (ok (levels.map Int.ofNat))) ∧
      levels.Pairwise (· < ·) ∧ levels.getLast? = some L ∧ (∀ l ∈ levels, 1 ≤ l) ∧
      (∀ l, levels[0]? = some l → 2 ^ l ≤ ys.length * f) ∧
      ∀ i a b p, levels[i]? = some a → levels[i + 1]? = some b → IsPrefixes xs L a p →
        p.length * 2 ^ (b - a) ≤ ys.length * f := by
  rw [toSet_eq hys hsame]
  have hne' : ys ≠ [] := by
    rintro rfl
    obtain ⟨x, hx⟩ := List.exists_mem_of_ne_nil _ hne
    have := (hsame x).mpr hx; cases this
  obtain ⟨l, rest, e, h1, h2, h3, h4, h5⟩ := computeLevels_ends hL hne' hn H L (Nat.le_refl _)
  refine ⟨l :: rest, ?_, h3, h4, ?_, ?_, ?_⟩
  · intro fuel hf
    obtain ⟨l', rest', e', g1, g2, g3, g4, g5⟩ := computeLevels_ends hL hne' hn H fuel hf
    rw [e']
    have mono : ∀ fuel lv r, levelsLoop D (computePrefixes ys L) L ys.length f fuel lv = some r →
        ∀ k, levelsLoop D (computePrefixes ys L) L ys.length f (fuel + k) lv = some r := by
      intro fuel
      induction fuel with
      | zero => intro lv r h; cases h
      | succ fuel ih =>
        intro lv r h k
        rw [Nat.add_right_comm, levelsLoop]
        rw [levelsLoop] at h
        dsimp only at h ⊢
        split
        · rename_i hlt
          rw [if_pos hlt] at h
          split
          · rename_i p hp
            rw [hp] at h
            dsimp only at h
            split
            · rename_i hm; rw [if_pos hm] at h; exact h
            · rename_i hm; rw [if_neg hm] at h; exact ih _ _ h k
          · rename_i hp
            split at h
            · rename_i q hq; exact absurd hq (hp q)
            · exact h
        · rename_i hlt; rw [if_neg hlt] at h; exact h
    rw [computeLevelsToEvaluate] at e e'
    split at e
    · cases e
    · rename_i hp
      rw [if_neg hp] at e'
      rw [computePrefixes_last, wrapInt32_small hn] at e e'
      have := mono _ _ _ e (fuel - L)
      rw [show L + (fuel - L) = fuel by omega, e'] at this
      exact this
  · intro a ha
    rcases List.mem_cons.mp ha with rfl | ha
    · exact h1
    · have := (List.pairwise_cons.mp h3).1 a ha; omega
  · intro b hb
    simp only [List.getElem?_cons_zero, Option.some.injEq] at hb
    subst hb
    exact Nat.le_trans (Nat.pow_le_pow_right (by omega) (by omega)) h2
  · intro i a b p ha hb hp
    have : p = dropBits ys (L - a) := sorted_unique _ _ hp.1 (dropBits_sorted hys _) fun y => by
      rw [hp.2, dropBits_mem]
      constructor
      · rintro ⟨x, hx, rfl⟩; exact ⟨x, (hsame x).mpr hx, rfl⟩
      · rintro ⟨x, hx, rfl⟩; exact ⟨x, (hsame x).mp hx, rfl⟩
    rw [this]
    exact h5 i a b ha hb

theorem validateFlags_ok {fl : Flags} (h1 : 0 ≤ fl.logDomainSize) (h2 : 0 < fl.numIterations)
    (h3 : fl.onlyNonzeros = true → fl.input ≠ none) (h4 : 2 ≤ fl.maxExpansionFactor)
    (h5 : ∀ l ∈ fl.levels, 0 < l ∧ l ≤ fl.logDomainSize) : validateFlags fl = ok () := by
  rw [validateFlags, check_true h1, check_true h2, check_true h3, check_true h4, check_true h5]; rfl

/-- The result of the program: in each iteration, the values of a key for all points to be evaluated at each level, in
increasing order. The key is one of two for a random point, with value 1. -/
def Spec.EvaluatesLevels (fp : FpEnv) (env : Env) (L : Nat) (xs : List U128) (levels : List Nat) (random : U128)
    (iterations bound : Nat) (r : DpfKey × List (List (List Output))) : Prop :=
  ∃ d k1 out, r.2 = List.replicate iterations out ∧
    Setup fp (parameters (levels.map Int.ofNat)) (fun _ => .uint .w32) d ∧
    SharesPoint (parameters (levels.map Int.ofNat)) (fun _ => .uint .w32) d env
      (BitVec.ofNat 128 (random.toNat % 2 ^ L)) (fun _ => (1 : BitVec 32)) r.1 k1 ∧
    out.length = levels.length ∧
    ∀ (i : Nat) vals, out[i]? = some vals → ∃ points, Evaluated L xs levels i points ∧
      d.evaluateAt env (Ty.uint .w32).helper r.1 i points = ok vals ∧ vals.length = points.length ∧
      points.length ≤ bound

theorem Evaluated.congr {L : Nat} {xs ys : List U128} {levels : List Nat} {i : Nat} {points : List U128}
    (h : Evaluated L ys levels i points) (e : ∀ x, x ∈ ys ↔ x ∈ xs) : Evaluated L xs levels i points := by
  refine ⟨h.1, ?_⟩
  intro y
  rw [h.2 y]
  constructor
  · rintro ⟨b, h1, h2, h3⟩
    refine ⟨b, h1, h2, ?_⟩
    intro j a hj ha
    obtain ⟨x, hx, h4⟩ := h3 j a hj ha
    exact ⟨x, (e x).mp hx, h4⟩
  · rintro ⟨b, h1, h2, h3⟩
    refine ⟨b, h1, h2, ?_⟩
    intro j a hj ha
    obtain ⟨x, hx, h4⟩ := h3 j a hj ha
    exact ⟨x, (e x).mpr hx, h4⟩

/-- C75, hierarchical evaluation: with an input file whose numbers are in the domain, of 2 to 128 bits, and harmless
floating-point errors, the program completes. It evaluates at most `n * f` points of each level, among them the prefixes of
all nonzeros. Missing: floating-point errors that are not harmless (`C75_hang_refuted`), a single nonzero with an
expansion factor below 4 (`C75_single_refuted`), and expansions to 2^29 points or more. -/
theorem C75_run_partial (D : Doubles) (fp : FpEnv) (env : Env) (fl : Flags) (L f : Nat) (xs ys : List U128)
    (hlog : fl.logDomainSize = L) (hL : 2 ≤ L) (hL' : L ≤ 128) (hf : fl.maxExpansionFactor = f) (hf' : 2 ≤ f)
    (hit : 0 < fl.numIterations) (honly : fl.onlyNonzeros = false) (hlv : fl.levels = []) (hin : fl.input = some xs)
    (hne : xs ≠ []) (hx : ∀ x ∈ xs, x.toNat < 2 ^ L)
    (hys : ys.Pairwise (· < ·)) (hsame : ∀ x, x ∈ ys ↔ x ∈ xs) (hn : ys.length * f < 2 ^ 29)
    (H : Harmless D L ys.length f) (random seed0 seed1 : U128) :
    ∃ levels r, (∀ fuel, L ≤ fuel → main D fp env fuel fl random seed0 seed1 = some (ok r)) ∧
      levels.Pairwise (· < ·) ∧ levels.getLast? = some L ∧
      EvaluatesLevels fp env L xs levels random fl.numIterations.toNat (ys.length * f) r := by
  have hle : ys.length ≤ ys.length * f := Nat.le_mul_of_pos_right _ (by omega)
  obtain ⟨levels, e, a1, a2, a3, a4, a5⟩ := C75_levels D L f hL xs ys hys hsame hne (by omega) H
  have hpre : ∀ a, IsPrefixes xs L a (dropBits ys (L - a)) := fun a => ⟨dropBits_sorted hys _, fun y => by
    rw [dropBits_mem]
    constructor
    · rintro ⟨x, hx, rfl⟩; exact ⟨x, (hsame x).mp hx, rfl⟩
    · rintro ⟨x, hx, rfl⟩; exact ⟨x, (hsame x).mpr hx, rfl⟩⟩
  have hne' : ys ≠ [] := by
    rintro rfl
    obtain ⟨x, hx⟩ := List.exists_mem_of_ne_nil _ hne
    have := (hsame x).mpr hx; cases this
  have hpow : ∀ k, 2 ^ k ≤ ys.length * f → k ≤ 28 := by
    intro k hk
    have : 2 ^ k < 2 ^ 29 := by omega
    have := (Nat.pow_lt_pow_iff_right (by omega)).mp this
    omega
  have g : GoodLevels L levels := by
    refine ⟨⟨a1, a2, hL'⟩, ?_, ?_⟩
    · intro l hl
      have := hpow l (a4 l hl); omega
    · intro i a b ha hb
      have h1 := a5 i a b _ ha hb (hpre a)
      have h2 : 0 < (dropBits ys (L - a)).length := List.length_pos_iff.mpr (dropBits_ne hne' _)
      exact hpow _ (Nat.le_trans (Nat.le_mul_of_pos_left _ h2) h1)
  obtain ⟨d, k0, k1, out, hr, hs, hsh, ho, hv⟩ := run_ok (fp := fp) g env hys (fun x hx' => hx x ((hsame x).mp hx'))
    (by omega) (prefixes := computePrefixes ys L) (by
      intro i a _ ha
      have hpos := a3 a (List.mem_of_getElem? ha)
      rw [(computePrefixes_get ys L).2 a (g.le (List.mem_of_getElem? ha)), if_neg (by omega)]) (fun _ => hne') fl hlog honly
    random seed0 seed1
  refine ⟨levels, (k0, List.replicate fl.numIterations.toNat out), ?_, a1, a2, d, k1, out, rfl, hs, hsh, ho, ?_⟩
  · intro fuel hfu
    have hval := validateFlags_ok (fl := fl) (by omega) hit (by rw [honly]; intro h; cases h) (by omega) (by rw [hlv]; simp)
    have hrp : readPrefixes fl = computePrefixes ys L := by
      rw [readPrefixes, hin, hlog, Int.toNat_natCast, ← toSet_eq hys hsame]
    have hlt : levelsToEvaluate D fuel fl (readPrefixes fl) = some (ok (levels.map Int.ofNat)) := by
      rw [levelsToEvaluate, hrp, if_pos hlv, computePrefixes_last, if_pos ⟨honly, hne'⟩, hlog, hf]
      have := e fuel hfu
      rwa [toSet_eq hys hsame] at this
    rw [main, hval]
    dsimp only
    rw [hlt, hrp]
    dsimp only
    rw [hr]
  · intro i vals hvi
    obtain ⟨points, p1, p2, p3, p4, p5⟩ := hv i vals hvi
    refine ⟨points, Evaluated.congr p1 hsame, p2, p3, ?_⟩
    have hi : i < levels.length := by rw [← ho]; exact (List.getElem?_eq_some_iff.mp hvi).1
    cases i with
    | zero =>
      have e := List.getElem?_eq_getElem hi
      rw [p4 _ rfl e]; exact a4 _ e
    | succ i =>
      have ea := List.getElem?_eq_getElem (l := levels) (i := i) (by omega)
      have eb := List.getElem?_eq_getElem hi
      rw [p5 i _ _ rfl ea eb]; exact a5 i _ _ _ ea eb (hpre _)

/-- C75, levels given by flags: positive, ascending levels up to `log_domain_size`, the first below 63 and at most 28 bits
from one to the next. Missing: other levels, see `C75_no_input_levels`, `C75_short_levels`, `C75_only_nonzeros_levels`. -/
theorem C75_flags_partial (D : Doubles) (fp : FpEnv) (env : Env) (fl : Flags) (L : Nat) (levels : List Nat)
    (xs ys : List U128) (hlog : fl.logDomainSize = L) (g : GoodLevels L levels) (hf : 2 ≤ fl.maxExpansionFactor)
    (hit : 0 < fl.numIterations) (honly : fl.onlyNonzeros = false) (hlv : fl.levels = levels.map Int.ofNat)
    (hpos : ∀ l ∈ levels, 0 < l) (hin : fl.input = some xs) (hne : xs ≠ []) (hx : ∀ x ∈ xs, x.toNat < 2 ^ L)
    (hys : ys.Pairwise (· < ·)) (hsame : ∀ x, x ∈ ys ↔ x ∈ xs) (hn : ys.length < 2 ^ 31)
    (random seed0 seed1 : U128) :
    ∃ r, (∀ fuel, main D fp env fuel fl random seed0 seed1 = some (ok r)) ∧
      EvaluatesLevels fp env L xs levels random fl.numIterations.toNat (2 ^ 62) r := by
  have hne' : ys ≠ [] := by
    rintro rfl
    obtain ⟨x, hx⟩ := List.exists_mem_of_ne_nil _ hne
    have := (hsame x).mpr hx; cases this
  obtain ⟨d, k0, k1, out, hr, hs, hsh, ho, hv⟩ := run_ok (fp := fp) g env hys (fun x hx' => hx x ((hsame x).mp hx'))
    hn (prefixes := computePrefixes ys L) (by
      intro i a _ ha
      have h0 := hpos a (List.mem_of_getElem? ha)
      rw [(computePrefixes_get ys L).2 a (g.le (List.mem_of_getElem? ha)), if_neg (by omega)]) (fun _ => hne') fl hlog honly
    random seed0 seed1
  refine ⟨(k0, List.replicate fl.numIterations.toNat out), ?_, d, k1, out, rfl, hs, hsh, ho, ?_⟩
  · intro fuel
    have hval := validateFlags_ok (fl := fl) (by omega) hit (by rw [honly]; intro h; cases h) hf (by
      rw [hlv, hlog]
      intro l hl
      obtain ⟨a, ha, rfl⟩ := List.mem_map.mp hl
      have := hpos a ha
      have := g.le ha
      constructor
      · show (0 : Int) < (a : Int); omega
      · show (a : Int) ≤ L; omega)
    have hrp : readPrefixes fl = computePrefixes ys L := by
      rw [readPrefixes, hin, hlog, Int.toNat_natCast, ← toSet_eq hys hsame]
    have hlt : levelsToEvaluate D fuel fl (readPrefixes fl) = some (ok (levels.map Int.ofNat)) := by
      rw [levelsToEvaluate, hlv, if_neg (by simp [g.ne])]
    rw [main, hval]
    dsimp only
    rw [hlt, hrp]
    dsimp only
    rw [hr]
  · intro i vals hvi
    obtain ⟨points, p1, p2, p3, p4, p5⟩ := hv i vals hvi
    refine ⟨points, Evaluated.congr p1 hsame, p2, p3, ?_⟩
    have hi : i < levels.length := by rw [← ho]; exact (List.getElem?_eq_some_iff.mp hvi).1
    cases i with
    | zero =>
      have e := List.getElem?_eq_getElem hi
      rw [p4 _ rfl e]; exact Nat.pow_le_pow_right (by omega) (by have := g.first _ e; omega)
    | succ i =>
      have ea := List.getElem?_eq_getElem (l := levels) (i := i) (by omega)
      have eb := List.getElem?_eq_getElem hi
      rw [p5 i _ _ rfl ea eb]
      have h1 : 2 ^ (levels[i + 1] - levels[i]) ≤ 2 ^ 28 := Nat.pow_le_pow_right (by omega) (g.step i _ _ ea eb)
      have h2 : (dropBits ys (L - levels[i])).length ≤ 2 ^ 31 :=
        Nat.le_trans (dropBits_length_le ys (Nat.zero_le _)) (Nat.le_of_lt hn)
      exact Nat.le_trans (Nat.mul_le_mul h2 h1) (by decide)

/-- C75, no input: the full domain of less than 2^63 points is expanded. -/
theorem C75_full_domain (D : Doubles) (fp : FpEnv) (env : Env) (fl : Flags) (L : Nat) (hlog : fl.logDomainSize = L)
    (hL : L < 63) (hf : 2 ≤ fl.maxExpansionFactor) (hit : 0 < fl.numIterations) (honly : fl.onlyNonzeros = false)
    (hlv : fl.levels = []) (hin : fl.input = none) (random seed0 seed1 : U128) :
    ∃ r, (∀ fuel, main D fp env fuel fl random seed0 seed1 = some (ok r)) ∧
      EvaluatesLevels fp env L [] [L] random fl.numIterations.toNat (2 ^ L) r := by
  have g : GoodLevels L [L] := ⟨⟨by simp, rfl, by omega⟩, by intro l hl; simp at hl; omega, by intro i a b ha hb; simp at hb⟩
  obtain ⟨d, k0, k1, out, hr, hs, hsh, ho, hv⟩ := run_ok (fp := fp) g env (xs := []) List.Pairwise.nil (by simp) (by simp)
    (prefixes := [[]]) (by intro i a h; simp at h) (by intro h; simp at h) fl hlog honly random seed0 seed1
  refine ⟨(k0, List.replicate fl.numIterations.toNat out), ?_, d, k1, out, rfl, hs, hsh, ho, ?_⟩
  · intro fuel
    have hval := validateFlags_ok (fl := fl) (by omega) hit (by rw [honly]; intro h; cases h) hf (by rw [hlv]; simp)
    have hrp : readPrefixes fl = [[]] := by rw [readPrefixes, hin]
    have hlt : levelsToEvaluate D fuel fl (readPrefixes fl) = some (ok ([L].map Int.ofNat)) := by
      rw [levelsToEvaluate, hrp, if_pos hlv, if_neg (by simp), hlog]; rfl
    rw [main, hval]
    dsimp only
    rw [hlt, hrp]
    dsimp only
    rw [hr]
  · intro i vals hvi
    obtain ⟨points, p1, p2, p3, p4, _⟩ := hv i vals hvi
    have hi : i < [L].length := by rw [← ho]; exact (List.getElem?_eq_some_iff.mp hvi).1
    obtain rfl : i = 0 := by simp at hi; omega
    exact ⟨points, p1, p2, p3, by rw [p4 L rfl rfl]; exact Nat.le_refl _⟩

/-- C75, only nonzeros: each iteration evaluates a key, one of two for a random point with value 1, at all nonzeros. -/
theorem C75_only_nonzeros (D : Doubles) (fp : FpEnv) (env : Env) (fl : Flags) (L : Nat) (xs ys : List U128)
    (hlog : fl.logDomainSize = L) (hL : L ≤ 128) (hf : 2 ≤ fl.maxExpansionFactor)
    (hit : 0 < fl.numIterations) (honly : fl.onlyNonzeros = true) (hlv : fl.levels = []) (hin : fl.input = some xs)
    (hx : ∀ x ∈ xs, x.toNat < 2 ^ L) (hys : ys.Pairwise (· < ·)) (hsame : ∀ x, x ∈ ys ↔ x ∈ xs)
    (random seed0 seed1 : U128) :
    ∃ k0 k1 d vals, (∀ fuel, main D fp env fuel fl random seed0 seed1 =
        some (ok (k0, List.replicate fl.numIterations.toNat [vals]))) ∧
      Setup fp (parameters [(L : Int)]) (fun _ => .uint .w32) d ∧
      SharesPoint (parameters [(L : Int)]) (fun _ => .uint .w32) d env (BitVec.ofNat 128 (random.toNat % 2 ^ L))
        (fun _ => (1 : BitVec 32)) k0 k1 ∧
      d.evaluateAt env (Ty.uint .w32).helper k0 (0 : Nat) ys = ok vals := by
  have g : LevelsUpTo L [L] := ⟨by simp, rfl, hL⟩
  have halpha : (BitVec.ofNat 128 (random.toNat % 2 ^ L)).toNat < 2 ^ L := by
    rw [BitVec.toNat_ofNat]
    exact Nat.lt_of_le_of_lt (Nat.mod_le _ _) (Nat.mod_lt _ (Nat.two_pow_pos _))
  obtain ⟨d0, d, k0, k1, hd0, hk, hs, hsh, hpl, hctx⟩ := run_keys (fp := fp) g env _ halpha seed0 seed1
  obtain ⟨vals, _, hv, _, hvl, _⟩ := hsh 0 (by simp [parameters]) ys (by
    intro x hxx
    rw [logSize_levels (levels := [L]) (a := L) rfl]
    exact hx x ((hsame x).mp hxx))
  refine ⟨k0, k1, d, vals, ?_, hs, hsh, hv⟩
  intro fuel
  have hval := validateFlags_ok (fl := fl) (by omega) hit (by rw [hin]; intro _ h; cases h) hf (by rw [hlv]; simp)
  have hrp : readPrefixes fl = computePrefixes ys L := by
    rw [readPrefixes, hin, hlog, Int.toNat_natCast, ← toSet_eq hys hsame]
  have hlt : levelsToEvaluate D fuel fl (readPrefixes fl) = some (ok ([L].map Int.ofNat)) := by
    rw [levelsToEvaluate, if_pos hlv, if_neg (by simp [honly]), hlog]; rfl
  rw [main, hval]
  dsimp only
  rw [hlt, hrp]
  dsimp only
  congr 1
  have hrun : runBatchedSinglePointEvaluation d env k0 ys fl.numIterations =
      ok (List.replicate fl.numIterations.toNat [vals]) := by
    rw [runBatchedSinglePointEvaluation, check_true (by rw [hpl]; rfl)]
    show mapRes _ _ = _
    rw [mapRes_const (b := [vals]) (List.range fl.numIterations.toNat), List.length_range]
    intro _ _
    rw [show d.evaluateAt env (Ty.uint .w32).helper k0 0 ys = ok vals from hv]
    show (check (vals.length = ys.length) >>= fun _ => ok [vals]) = _
    rw [check_true hvl]; rfl
  rw [run, computePrefixes_last]
  show (value (Dpf.createIncremental fp (levelParams [L])) >>= fun d => _) = _
  rw [hd0]
  show (alphaOf fl.logDomainSize random >>= fun alpha => _) = _
  rw [hlog, alphaOf_ok hL]
  show (value (d0.generateKeysIntegers env (BitVec.ofNat 128 (random.toNat % 2 ^ L)) (([L].map Int.ofNat).map fun _ => 1)
    seed0 seed1).1 >>= fun keys => _) = _
  rw [hk, honly]
  show (runBatchedSinglePointEvaluation d env k0 ys fl.numIterations >>= fun results => _) = _
  rw [hrun]; rfl

theorem prefixesToEvaluate_reads {L : Nat} (xs : List U128) (levels : List Nat) (h : ∀ l ∈ levels, l ≤ L) :
    ∃ rest, prefixesToEvaluate (computePrefixes xs L) (levels.map Int.ofNat) = ok ([] :: rest) := by
  have : mapRes (fun l => rdInt (computePrefixes xs L) l) (levels.map Int.ofNat).dropLast =
      ok ((levels.map Int.ofNat).dropLast.map fun l => if l.toNat = 0 ∧ 0 < L then [] else dropBits xs (L - l.toNat)) := by
    apply mapRes_eq_ok_map
    intro l hl
    obtain ⟨a, ha, rfl⟩ := List.mem_map.mp (List.dropLast_subset _ hl)
    show rdInt _ ((a : Nat) : Int) = _
    rw [rdInt_natCast, rd_eq_ok, (computePrefixes_get xs L).2 a (h a ha)]
    rfl
  exact ⟨_, by rw [prefixesToEvaluate, this]; rfl⟩

/-- C75: two or more levels without an input file: the program reads behind the end of the list of prefixes. -/
theorem C75_no_input_levels (D : Doubles) (fp : FpEnv) (env : Env) (fuel : Nat) (fl : Flags) (a b : Int) (rest : List Int)
    (hlog : 0 ≤ fl.logDomainSize) (hf : 2 ≤ fl.maxExpansionFactor) (hit : 0 < fl.numIterations)
    (honly : fl.onlyNonzeros = false) (hlv : fl.levels = a :: b :: rest)
    (hr : ∀ l ∈ fl.levels, 0 < l ∧ l ≤ fl.logDomainSize) (hin : fl.input = none) (random seed0 seed1 : U128) :
    main D fp env fuel fl random seed0 seed1 = some ub := by
  have hval := validateFlags_ok (fl := fl) hlog hit (by rw [honly]; intro h; cases h) hf hr
  have hrp : readPrefixes fl = [[]] := by rw [readPrefixes, hin]
  have ha := (hr a (by rw [hlv]; simp)).1
  rw [main, hval]
  dsimp only
  rw [levelsToEvaluate, hlv, if_neg (by simp), hrp]
  dsimp only
  have : rdInt ([[]] : List (List U128)) a = ub := by
    obtain ⟨k, rfl⟩ : ∃ k : Nat, a = ((k + 1 : Nat) : Int) := ⟨a.toNat - 1, by omega⟩
    rw [rdInt_natCast]; rfl
  rw [run, prefixesToEvaluate, List.dropLast_cons_cons, mapRes_cons, this]
  rfl

/-- C75: if the last of the given levels is below the domain size, the program aborts whenever its random point has a
bit above that level. -/
theorem C75_short_levels (D : Doubles) (fp : FpEnv) (env : Env) (fuel : Nat) (fl : Flags) (L L' : Nat) (levels : List Nat)
    (xs : List U128) (hlog : fl.logDomainSize = L) (hL : L ≤ 128) (hL' : L' < L) (g : LevelsUpTo L' levels)
    (hpos : ∀ l ∈ levels, 0 < l) (hf : 2 ≤ fl.maxExpansionFactor) (hit : 0 < fl.numIterations)
    (hlv : fl.levels = levels.map Int.ofNat) (hin : fl.input = some xs) (random seed0 seed1 : U128)
    (hr : 2 ^ L' ≤ random.toNat % 2 ^ L) : main D fp env fuel fl random seed0 seed1 = some crash := by
  have hval := validateFlags_ok (fl := fl) (by omega) hit (by rw [hin]; intro _ h; cases h) hf (by
    rw [hlv, hlog]
    intro l hl
    obtain ⟨a, ha, rfl⟩ := List.mem_map.mp hl
    have := hpos a ha
    have := g.le ha
    constructor
    · show (0 : Int) < (a : Int); omega
    · show (a : Int) ≤ L; omega)
  have hrp : readPrefixes fl = computePrefixes (toSet xs) L := by
    rw [readPrefixes, hin, hlog, Int.toNat_natCast]
  obtain ⟨rest, hto⟩ := prefixesToEvaluate_reads (L := L) (toSet xs) levels fun l hl => by have := g.le hl; omega
  obtain ⟨d0, _, _, _, hd0, _⟩ := run_keys (fp := fp) g env 0 (Nat.two_pow_pos _) seed0 seed1
  have hall : ∀ p ∈ levelParams levels, p.valueType = some (.integer 32) := by
    intro p hp
    simp only [levelParams, parameters, List.mem_map] at hp
    obtain ⟨a, _, rfl⟩ := hp; rfl
  have hk := (C59_integers fp _ (fun _ => .w32) d0 ⟨d0, [], hd0, rfl⟩ (fun h p hp => hall p (List.mem_of_getElem? hp)) env
    (BitVec.ofNat 128 (random.toNat % 2 ^ L)) ((levels.map Int.ofNat).map fun _ => 1) seed0 seed1).2.1 (by
      rintro ⟨_, _, h⟩
      rw [lastLogSize_levels g, BitVec.toNat_ofNat, Nat.mod_eq_of_lt
        (Nat.lt_of_le_of_lt (Nat.mod_le _ _) random.isLt)] at h
      omega)
  rw [main, hval]
  dsimp only
  rw [levelsToEvaluate, hlv, if_neg (by simp [g.ne]), hrp]
  dsimp only
  rw [run, hto]
  show some (value (Dpf.createIncremental fp (levelParams levels)) >>= fun d => _) = _
  rw [hd0]
  show some (alphaOf fl.logDomainSize random >>= fun alpha => _) = _
  rw [hlog, alphaOf_ok hL]
  show some (value (d0.generateKeysIntegers env (BitVec.ofNat 128 (random.toNat % 2 ^ L))
    ((levels.map Int.ofNat).map fun _ => 1) seed0 seed1).1 >>= fun keys => _) = _
  rw [hk]; rfl

/-- C75: contrary to its documentation, `--only_nonzeros` does not ignore the levels: with two or more, the program
aborts. -/
theorem C75_only_nonzeros_levels (D : Doubles) (fp : FpEnv) (env : Env) (fuel : Nat) (fl : Flags) (L : Nat)
    (levels : List Nat) (xs : List U128) (hlog : fl.logDomainSize = L) (g : LevelsUpTo L levels)
    (hpos : ∀ l ∈ levels, 0 < l) (h2 : 2 ≤ levels.length) (hf : 2 ≤ fl.maxExpansionFactor) (hit : 0 < fl.numIterations)
    (honly : fl.onlyNonzeros = true) (hlv : fl.levels = levels.map Int.ofNat) (hin : fl.input = some xs)
    (random seed0 seed1 : U128) : main D fp env fuel fl random seed0 seed1 = some crash := by
  have hval := validateFlags_ok (fl := fl) (by omega) hit (by rw [hin]; intro _ h; cases h) hf (by
    rw [hlv, hlog]
    intro l hl
    obtain ⟨a, ha, rfl⟩ := List.mem_map.mp hl
    have := hpos a ha
    have := g.le ha
    constructor
    · show (0 : Int) < (a : Int); omega
    · show (a : Int) ≤ L; omega)
  have hrp : readPrefixes fl = computePrefixes (toSet xs) L := by
    rw [readPrefixes, hin, hlog, Int.toNat_natCast]
  obtain ⟨rest, hto⟩ := prefixesToEvaluate_reads (L := L) (toSet xs) levels fun l hl => g.le hl
  have halpha : (BitVec.ofNat 128 (random.toNat % 2 ^ L)).toNat < 2 ^ L := by
    rw [BitVec.toNat_ofNat]
    exact Nat.lt_of_le_of_lt (Nat.mod_le _ _) (Nat.mod_lt _ (Nat.two_pow_pos _))
  obtain ⟨d0, d, k0, k1, hd0, hk, _, _, hpl, _⟩ := run_keys (fp := fp) g env _ halpha seed0 seed1
  rw [main, hval]
  dsimp only
  rw [levelsToEvaluate, hlv, if_neg (by simp [g.ne]), hrp]
  dsimp only
  rw [run, hto]
  show some (value (Dpf.createIncremental fp (levelParams levels)) >>= fun d => _) = _
  rw [hd0]
  show some (alphaOf fl.logDomainSize random >>= fun alpha => _) = _
  rw [hlog, alphaOf_ok g.bits]
  show some (value (d0.generateKeysIntegers env (BitVec.ofNat 128 (random.toNat % 2 ^ L))
    ((levels.map Int.ofNat).map fun _ => 1) seed0 seed1).1 >>= fun keys => _) = _
  rw [hk, honly]
  show some ((check (d.pv.parameters.length = 1) >>= fun _ => _) >>= fun results => _) = _
  rw [check, if_neg (by omega)]; rfl

/-- If the first of several levels is 0, the second call gets no prefixes, and the program aborts. -/
theorem run_level_zero {fp : FpEnv} {L b : Nat} {rest : List Nat} (g : LevelsUpTo L (0 :: b :: rest)) (env : Env)
    (xs : List U128) (fl : Flags) (h1 : fl.logDomainSize = L) (h2 : fl.onlyNonzeros = false) (h3 : 0 < fl.numIterations)
    (random seed0 seed1 : U128) :
    run fp env fl (computePrefixes xs L) ((0 :: b :: rest).map Int.ofNat) random seed0 seed1 = crash := by
  have halpha : (BitVec.ofNat 128 (random.toNat % 2 ^ L)).toNat < 2 ^ L := by
    rw [BitVec.toNat_ofNat]
    exact Nat.lt_of_le_of_lt (Nat.mod_le _ _) (Nat.mod_lt _ (Nat.two_pow_pos _))
  obtain ⟨d0, d, k0, k1, hd0, hk, hs, hsh, hpl, hctx⟩ := run_keys (fp := fp) g env _ halpha seed0 seed1
  have hb := g.le (a := b) (by simp)
  have hb0 : 0 < b := (List.pairwise_cons.mp g.ascending).1 b (by simp)
  have hto : ∃ ps, prefixesToEvaluate (computePrefixes xs L) ((0 :: b :: rest).map Int.ofNat) = ok ([] :: [] :: ps) ∧
      ps.length = rest.length := by
    have : mapRes (fun l => rdInt (computePrefixes xs L) l) ((0 :: b :: rest).map Int.ofNat).dropLast =
        ok (((0 :: b :: rest).map Int.ofNat).dropLast.map fun l =>
          if l.toNat = 0 ∧ 0 < L then [] else dropBits xs (L - l.toNat)) := by
      apply mapRes_eq_ok_map
      intro l hl
      obtain ⟨a, ha, rfl⟩ := List.mem_map.mp (List.dropLast_subset _ hl)
      show rdInt _ ((a : Nat) : Int) = _
      rw [rdInt_natCast, rd_eq_ok, (computePrefixes_get xs L).2 a (g.le ha)]
      rfl
    rw [List.map_cons, List.map_cons, List.dropLast_cons_cons, List.map_cons] at this
    rw [if_pos ⟨rfl, by omega⟩] at this
    exact ⟨_, by rw [prefixesToEvaluate, List.map_cons, List.map_cons, List.dropLast_cons_cons, this]; rfl, by simp⟩
  obtain ⟨ps, hto, hps⟩ := hto
  have hlog0 := logSize_levels (levels := 0 :: b :: rest) (h := 0) (a := 0) rfl
  obtain ⟨f1, f2⟩ := C02_full_domain fp _ T32 d hs env k0 _ hctx 0 (by simp [parameters]) (by omega)
  obtain ⟨v0, _, e0, _⟩ := hsh 0 (by simp [parameters]) (allPoints (levelParams (0 :: b :: rest)) 0) (by
    intro x hx
    rw [allPoints, hlog0] at hx
    simp at hx
    subst hx
    exact Nat.two_pow_pos _)
  have e0' : (d.evaluateUntil env (Ty.uint .w32).helper (0 : Nat) [] ⟨d.pv.parameters, some k0, -1, [], 0⟩).1 = ok v0 := by
    rw [← e0]; exact f1
  obtain ⟨_, _, _, hprev⟩ := C03_incremental_partial fp _ T32 d hs env k0 _ (.create hctx) (.uint .w32) (0 : Nat) [] v0 e0'
    (Or.inr (by simp))
  have hist := History.evalUntil (.uint .w32) (0 : Nat) [] (History.create (env := env) hctx)
  have hcall : d.evaluateUntil env (Ty.uint .w32).helper (0 : Nat) [] ⟨d.pv.parameters, some k0, -1, [], 0⟩ =
      (ok v0, (d.evaluateUntil env (Ty.uint .w32).helper (0 : Nat) [] ⟨d.pv.parameters, some k0, -1, [], 0⟩).2) := by
    rw [← e0']
  generalize (d.evaluateUntil env (Ty.uint .w32).helper (0 : Nat) [] ⟨d.pv.parameters, some k0, -1, [], 0⟩).2 = ctx1
    at hcall hprev hist
  have herr : d.evaluateUntil env (Ty.uint .w32).helper (1 : Nat) [] ctx1 = (err .invalidArgument, ctx1) := by
    rcases hs.toCreated.evaluateUntil_outcomes env (hs.wf.history env hist) (Ty.uint .w32).helper (1 : Nat) [] with he | ⟨ha, _, _⟩
    · exact he
    · have := ha.first.mpr rfl
      rw [hprev] at this
      omega
  have heval : evaluateLevels d env ([] :: [] :: ps) 0 ⟨d.pv.parameters, some k0, -1, [], 0⟩ = crash := by
    rw [evaluateLevels]
    show (do let vals ← value (d.evaluateUntil env (Ty.uint .w32).helper (0 : Nat) []
                ⟨d.pv.parameters, some k0, -1, [], 0⟩).1
             let rest ← evaluateLevels d env _ (0 + 1) (d.evaluateUntil env (Ty.uint .w32).helper (0 : Nat) []
                ⟨d.pv.parameters, some k0, -1, [], 0⟩).2
             ok (vals :: rest)) = _
    rw [hcall]
    show (do let rest ← evaluateLevels d env ([] :: ps) (0 + 1) ctx1; ok (v0 :: rest)) = _
    rw [evaluateLevels]
    show (do let rest ← (do
              let vals ← value (d.evaluateUntil env (Ty.uint .w32).helper (1 : Nat) [] ctx1).1
              let rest ← evaluateLevels d env _ (1 + 1) (d.evaluateUntil env (Ty.uint .w32).helper (1 : Nat) [] ctx1).2
              ok (vals :: rest))
             ok (v0 :: rest)) = _
    rw [herr]; rfl
  have hrun : runHierarchicalEvaluation d env k0 ([] :: [] :: ps) fl.numIterations = crash := by
    rw [runHierarchicalEvaluation, hctx]
    show (check (_ = d.pv.parameters.length) >>= fun _ => _) = _
    rw [check_true (by rw [hpl]; simp [hps])]
    show mapRes _ _ = _
    obtain ⟨n, hn⟩ : ∃ n, fl.numIterations.toNat = n + 1 := ⟨fl.numIterations.toNat - 1, by omega⟩
    rw [hn, List.range_succ_eq_map, mapRes_cons, heval]; rfl
  rw [run, hto]
  show (value (Dpf.createIncremental fp (levelParams (0 :: b :: rest))) >>= fun d => _) = _
  rw [hd0]
  show (alphaOf fl.logDomainSize random >>= fun alpha => _) = _
  rw [h1, alphaOf_ok g.bits]
  show (value (d0.generateKeysIntegers env (BitVec.ofNat 128 (random.toNat % 2 ^ L))
    (((0 :: b :: rest).map Int.ofNat).map fun _ => 1) seed0 seed1).1 >>= fun keys => _) = _
  rw [hk, h2]
  show (runHierarchicalEvaluation d env k0 _ fl.numIterations >>= fun results => _) = _
  rw [hrun]; rfl

/-- The default flags, with an input file. -/
def defaultFlags (xs : List U128) : Flags := ⟨20, 20, 2, false, [], some xs⟩

/-- The loop does not end if it gets to level `l`. -/
def Stuck (D : Doubles) (prefixes : List (List U128)) (log n f l : Int) : Prop :=
  ∀ (fuel : Nat) (pre : List Int), levelsLoop D prefixes log n f fuel (pre ++ [l]) = none

theorem levelsLoop_stuck {D : Doubles} {prefixes : List (List U128)} {log n f l m l' : Int} {p : List U128} (h : l < log)
    (hp : rdInt prefixes (l + 1) = ok p) (hm : wrapInt32 p.length = m) (hm' : ¬ m ≤ 0)
    (hs : nextLevel D log n f l m = l') (hl : l' = l ∨ Stuck D prefixes log n f l') : Stuck D prefixes log n f l := by
  intro fuel
  induction fuel with
  | zero => intro pre; rfl
  | succ fuel ih =>
    intro pre
    rw [levelsLoop]
    have e : (pre ++ [l]).getLastD 0 = l := by simp
    rw [e]
    dsimp only
    rw [if_pos h, hp]
    dsimp only
    rw [hm, if_neg hm', hs]
    rcases hl with rfl | hl
    · exact ih (pre ++ [l'])
    · exact hl fuel (pre ++ [l])

/-- The double closest to the logarithm of 3 is 7138036527644008 / 2^52. -/
def log2Three : Rat := 7138036527644008 / 2 ^ 52

/-- C75, the choice of levels does not always end: with the default flags (domain size 2^20, expansion factor 2) and the
nonzeros 0, 2^18 and 2^19, it never gets above level 14 with doubles, because `(14 + log2(3)) + 1 - log2(3)` is rounded to a
number below 15. The same holds if the logarithm of 3 is the double above or below the closest one. -/
theorem C75_hang_refuted (D : Doubles) (fp : FpEnv) (env : Env) (hround : D.round = roundDouble)
    (h2 : D.log2 2 = 1) (h3 : D.log2 3 = log2Three ∨ D.log2 3 = log2Three - 1 / 2 ^ 52 ∨ D.log2 3 = log2Three + 1 / 2 ^ 52)
    (fuel : Nat) (random seed0 seed1 : U128) :
    main D fp env fuel (defaultFlags [0, 2 ^ 18, 2 ^ 19]) random seed0 seed1 = none := by
  have hval : validateFlags (defaultFlags [0, 2 ^ 18, 2 ^ 19]) = ok () := by decide +kernel
  have hp : readPrefixes (defaultFlags [0, 2 ^ 18, 2 ^ 19]) = computePrefixes [0, 2 ^ 18, 2 ^ 19] 20 := by decide +kernel
  rw [main, hval]
  dsimp only
  have hl : wrapInt32 ((computePrefixes [0, 2 ^ 18, 2 ^ 19] 20).getLastD []).length = 3 := by decide +kernel
  have hle : levelsToEvaluate D fuel (defaultFlags [0, 2 ^ 18, 2 ^ 19]) (computePrefixes [0, 2 ^ 18, 2 ^ 19] 20) =
      levelsLoop D (computePrefixes [0, 2 ^ 18, 2 ^ 19] 20) 20 3 2 fuel [firstLevel D 20 3 2] := by
    rw [levelsToEvaluate, if_pos (by rfl), if_pos (by decide +kernel), computeLevelsToEvaluate, hl, if_neg (by decide)]
    rfl
  have hr : ∀ l : Fin 19, rdInt (computePrefixes [0, 2 ^ 18, 2 ^ 19] 20) ((l.val : Int) + 1 + 1) =
      ok ((computePrefixes [0, 2 ^ 18, 2 ^ 19] 20).getD (l.val + 2) []) ∧
      wrapInt32 ((computePrefixes [0, 2 ^ 18, 2 ^ 19] 20).getD (l.val + 2) []).length = 3 := by decide +kernel
  have hnext : ∀ l : Int, nextLevel D 20 3 2 l 3 =
      min 20 (truncate (roundDouble (roundDouble (roundDouble (l + D.log2 3) + 1) - D.log2 3))) := by
    intro l; rw [nextLevel, hround, h2]
  have hfirst : firstLevel D 20 3 2 = min 20 (truncate (roundDouble (D.log2 3 + 1))) - 1 := by
    rw [firstLevel, hround, h2]
  have hdown : ∀ c : Rat, D.log2 3 = c →
      (∀ l : Fin 13, min 20 (truncate (roundDouble (roundDouble (roundDouble (((l.val + 1 : Int) : Rat) + c) + 1) - c))) = l.val + 2) →
      min 20 (truncate (roundDouble (roundDouble (roundDouble (((14 : Int) : Rat) + c) + 1) - c))) = 14 →
      Stuck D (computePrefixes [0, 2 ^ 18, 2 ^ 19] 20) 20 3 2 1 := by
    intro c hc ht h14
    have s14 : Stuck D (computePrefixes [0, 2 ^ 18, 2 ^ 19] 20) 20 3 2 14 := by
      obtain ⟨a, b⟩ := hr 13
      exact levelsLoop_stuck (by decide) a b (by decide) (by rw [hnext, hc]; exact h14) (Or.inl rfl)
    have : ∀ k : Nat, k ≤ 13 → Stuck D (computePrefixes [0, 2 ^ 18, 2 ^ 19] 20) 20 3 2 (14 - k) := by
      intro k
      induction k with
      | zero => intro _; exact s14
      | succ k ih =>
        intro hk
        obtain ⟨a, b⟩ := hr ⟨12 - k, by omega⟩
        have e : ((12 - k : Nat) : Int) + 1 = 14 - (k + 1 : Nat) := by omega
        dsimp only at a b
        have t := ht ⟨12 - k, by omega⟩
        dsimp only at t
        rw [e] at a t
        exact levelsLoop_stuck (l' := ((12 - k : Nat) : Int) + 2) (by omega) a b (by decide) ((hnext _).trans (by rw [hc]; exact t))
          (Or.inr (by rw [show ((12 - k : Nat) : Int) + 2 = 14 - (k : Nat) by omega]; exact ih (by omega)))
    exact this 13 (by omega)
  have hst : firstLevel D 20 3 2 = 1 ∧ Stuck D (computePrefixes [0, 2 ^ 18, 2 ^ 19] 20) 20 3 2 1 := by
    rw [hfirst]
    rcases h3 with h3 | h3 | h3
    · exact ⟨by rw [h3]; decide +kernel, hdown _ h3 (by decide +kernel) (by decide +kernel)⟩
    · exact ⟨by rw [h3]; decide +kernel, hdown _ h3 (by decide +kernel) (by decide +kernel)⟩
    · refine ⟨by rw [h3]; decide +kernel, ?_⟩
      obtain ⟨a, b⟩ := hr 0
      exact levelsLoop_stuck (l := 1) (by decide) a b (by decide) (by rw [hnext, h3]; decide +kernel) (Or.inl rfl)
  have := hst.2 fuel []
  rw [List.nil_append] at this
  rw [hp, hle, hst.1, this]

/-- C75, one nonzero: with the default flags the first level is 0, and the program aborts. -/
theorem C75_single_refuted (D : Doubles) (fp : FpEnv) (env : Env) (hround : D.round = roundDouble) (h1 : D.log2 1 = 0)
    (h2 : D.log2 2 = 1) (fuel : Nat) (hfuel : 21 ≤ fuel) (random seed0 seed1 : U128) :
    main D fp env fuel (defaultFlags [5]) random seed0 seed1 = some crash := by
  have hval : validateFlags (defaultFlags [5]) = ok () := by decide +kernel
  have hp : readPrefixes (defaultFlags [5]) = computePrefixes [5] 20 := by decide +kernel
  have hl : wrapInt32 ((computePrefixes [5] 20).getLastD []).length = 1 := by decide +kernel
  have hle : levelsToEvaluate D fuel (defaultFlags [5]) (computePrefixes [5] 20) =
      levelsLoop D (computePrefixes [5] 20) 20 1 2 fuel [firstLevel D 20 1 2] := by
    rw [levelsToEvaluate, if_pos (by rfl), if_pos (by decide +kernel), computeLevelsToEvaluate, hl, if_neg (by decide)]
    rfl
  let D' : Doubles := ⟨fun n => if n = 2 then 1 else 0, roundDouble⟩
  have hd : ∀ l m, m = 1 → nextLevel D 20 1 2 l m = nextLevel D' 20 1 2 l m := by
    intro l m hm; subst hm; rw [nextLevel, nextLevel, hround, h1, h2]; rfl
  have hrow : ∀ i : Fin 20, rdInt (computePrefixes [5] 20) ((i.val : Int) + 1) =
      ok ((computePrefixes [5] 20).getD (i.val + 1) []) ∧
      wrapInt32 ((computePrefixes [5] 20).getD (i.val + 1) []).length = 1 ∧
      nextLevel D' 20 1 2 (i.val : Int) 1 = i.val + 1 := by decide +kernel
  have hloop : ∀ (k : Nat), k ≤ 20 → ∀ (fuel : Nat), k < fuel → ∀ pre : List Int,
      levelsLoop D (computePrefixes [5] 20) 20 1 2 fuel (pre ++ [((20 - k : Nat) : Int)]) =
        some (ok (pre ++ (List.range' (20 - k) (k + 1)).map Int.ofNat)) := by
    intro k
    induction k with
    | zero =>
      intro _ fuel hf pre
      obtain ⟨fuel, rfl⟩ : ∃ f, fuel = f + 1 := ⟨fuel - 1, by omega⟩
      rw [levelsLoop]
      have e : (pre ++ [((20 - 0 : Nat) : Int)]).getLastD 0 = 20 := by simp
      rw [e]
      dsimp only
      rw [if_neg (by decide)]; rfl
    | succ k ih =>
      intro hk fuel hf pre
      obtain ⟨fuel, rfl⟩ : ∃ f, fuel = f + 1 := ⟨fuel - 1, by omega⟩
      obtain ⟨a, b, c⟩ := hrow ⟨20 - (k + 1), by omega⟩
      dsimp only at a b c
      rw [levelsLoop]
      have e : (pre ++ [((20 - (k + 1) : Nat) : Int)]).getLastD 0 = ((20 - (k + 1) : Nat) : Int) := by simp
      rw [e]
      dsimp only
      rw [if_pos (by omega), a]
      dsimp only
      rw [b, if_neg (by decide), hd _ _ rfl, c, show ((20 - (k + 1) : Nat) : Int) + 1 = ((20 - k : Nat) : Int) by omega,
        ih (by omega) fuel (by omega)]
      rw [show List.range' (20 - (k + 1)) (k + 1 + 1) = (20 - (k + 1)) :: List.range' (20 - k) (k + 1) by
        rw [List.range'_succ, show 20 - (k + 1) + 1 = 20 - k by omega], List.append_assoc]; rfl
  have hf : firstLevel D 20 1 2 = ((20 - 20 : Nat) : Int) := by
    rw [firstLevel, hround, h1, h2]; decide +kernel
  have hlv := hloop 20 (by omega) fuel (by omega) []
  rw [List.nil_append, List.nil_append] at hlv
  rw [main, hval]
  dsimp only
  rw [hp, hle, hf, hlv]
  dsimp only
  rw [show List.range' (20 - 20) (20 + 1) = 0 :: 1 :: List.range' 2 19 by rfl, run_level_zero (L := 20) (b := 1) (rest := List.range' 2 19) ⟨by decide, by decide, by decide⟩ env [5] _ rfl rfl
    (by decide)]

/-- Logarithms of 1 to 4. -/
def exDoubles : Doubles := ⟨fun n => if n = 2 then 1 else if n = 3 then log2Three else if n = 4 then 2 else 0, roundDouble⟩

theorem exDoubles_harmless : Harmless exDoubles 8 4 4 := by
  constructor
  · exact ⟨4, by decide +kernel, by decide, by decide⟩
  · intro l m hl hm hmn
    have h : ∀ l : Fin 8, ∀ m : Fin 4,
        (l.val : Int) + 1 ≤ truncate (exDoubles.round (exDoubles.round (exDoubles.round (((l.val : Int) : Rat) +
          exDoubles.log2 4) + exDoubles.log2 4) - exDoubles.log2 (m.val + 1))) ∧
        (m.val + 1) * 2 ^ (truncate (exDoubles.round (exDoubles.round (exDoubles.round (((l.val : Int) : Rat) +
          exDoubles.log2 4) + exDoubles.log2 4) - exDoubles.log2 (m.val + 1))) - (l.val : Int)).toNat ≤ 4 * 4 := by
      decide +kernel
    obtain ⟨h1, h2⟩ := h ⟨l, hl⟩ ⟨m - 1, by omega⟩
    dsimp only at h1 h2
    rw [show ((m - 1 : Nat) : Int) + 1 = (m : Int) by omega] at h1 h2
    rw [show m - 1 + 1 = m by omega] at h2
    refine ⟨_, ?_, ?_, h2⟩
    · rw [show ((4 : Nat) : Int) = 4 from rfl]
      omega
    · omega

/-- Flags for a domain of 8 bits, expansion factor 4 and two iterations. -/
def exFlags (levels : List Int) (only : Bool) (xs : List U128) : Flags := ⟨8, 2, 4, only, levels, some xs⟩

/-- C75 on four nonzeros of eight bits. -/
example : ∃ levels r, (∀ fuel, 8 ≤ fuel → main exDoubles exFp exEnv fuel (exFlags [] false [96, 3, 250, 17, 3]) 77 1 2 =
      some (ok r)) ∧ levels.Pairwise (· < ·) ∧ levels.getLast? = some 8 ∧
    EvaluatesLevels exFp exEnv 8 [96, 3, 250, 17, 3] levels 77 2 (4 * 4) r :=
  C75_run_partial exDoubles exFp exEnv (exFlags [] false [96, 3, 250, 17, 3]) 8 4 [96, 3, 250, 17, 3] [3, 17, 96, 250]
    rfl (by decide) (by decide) rfl (by decide) (by decide) rfl rfl rfl (by decide)
    (by intro x hx; simp only [List.mem_cons, List.not_mem_nil, or_false] at hx
        rcases hx with rfl | rfl | rfl | rfl | rfl <;> decide +kernel)
    (by decide +kernel) (by intro x; simp only [List.mem_cons, List.not_mem_nil, or_false]
                            constructor <;> (intro h; rcases h with rfl | rfl | rfl | rfl | rfl <;> simp))
    (by decide) exDoubles_harmless 77 1 2

/-- The levels there. -/
example : levelsToEvaluate exDoubles 8 (exFlags [] false [96, 3, 250, 17, 3])
    (readPrefixes (exFlags [] false [96, 3, 250, 17, 3])) = some (ok [3, 5, 7, 8]) := by decide +kernel

/-- C75 on levels given by flags. -/
example : GoodLevels 100 [10, 38, 60, 88, 100] :=
  ⟨⟨by decide, by decide, by decide⟩, by intro l hl; simp at hl; omega, by
    intro i a b ha hb
    match i, ha, hb with
    | 0, ha, hb => simp at ha hb; omega
    | 1, ha, hb => simp at ha hb; omega
    | 2, ha, hb => simp at ha hb; omega
    | 3, ha, hb => simp at ha hb; omega
    | i + 4, ha, hb => simp at hb⟩

/-- C75 on bad levels: none of the input, below the domain size, and with `--only_nonzeros`. -/
example : main exDoubles exFp exEnv 0 { exFlags [3, 8] false [] with input := none } 77 1 2 = some ub ∧
    main exDoubles exFp exEnv 0 (exFlags [3, 5] false [9]) 77 1 2 = some crash ∧
    main exDoubles exFp exEnv 0 (exFlags [3, 8] true [9]) 77 1 2 = some crash :=
  ⟨C75_no_input_levels exDoubles exFp exEnv 0 _ 3 8 [] (by decide) (by decide) (by decide) rfl rfl (by decide) rfl 77 1 2,
    C75_short_levels exDoubles exFp exEnv 0 _ 8 5 [3, 5] [9] rfl (by decide) (by decide) ⟨by decide, by decide, by decide⟩
      (by decide) (by decide) (by decide) rfl rfl 77 1 2 (by decide),
    C75_only_nonzeros_levels exDoubles exFp exEnv 0 _ 8 [3, 8] [9] rfl ⟨by decide, by decide, by decide⟩ (by decide) (by decide)
      (by decide) (by decide) rfl rfl rfl 77 1 2⟩

/-- C75 on further examples: prefixes of nonzeros; levels; levels given by flags; the full domain; `--only_nonzeros`. -/
example : ∃ p, (computePrefixes (toSet [6, 1, 7, 1, 0]) 3)[2]? = some p ∧ IsPrefixes [6, 1, 7, 1, 0] 3 2 p :=
  (C75_prefixes [6, 1, 7, 1, 0] 3 (by decide)).2.2 2 (by decide) (by decide)
example : ∃ levels : List Nat, computeLevelsToEvaluate exDoubles 8 (computePrefixes (toSet [96, 3, 250, 17, 3]) 8) 8 (4 : Nat) =
      some (ok (levels.map Int.ofNat)) ∧ levels.getLast? = some 8 := by
  obtain ⟨levels, h1, _, h3, _⟩ := C75_levels exDoubles 8 4 (by decide) [96, 3, 250, 17, 3] [3, 17, 96, 250] (by decide +kernel)
    (by intro x; simp only [List.mem_cons, List.not_mem_nil, or_false]
        constructor <;> (intro h; rcases h with rfl | rfl | rfl | rfl | rfl <;> simp)) (by decide) (by decide) exDoubles_harmless
  exact ⟨levels, h1 8 (Nat.le_refl 8), h3⟩
example : ∃ r, main exDoubles exFp exEnv 0 (exFlags [3, 8] false [9, 3, 9]) 77 1 2 = some (ok r) ∧
    EvaluatesLevels exFp exEnv 8 [9, 3, 9] [3, 8] 77 2 (2 ^ 62) r := by
  obtain ⟨r, h1, h2⟩ := C75_flags_partial exDoubles exFp exEnv (exFlags [3, 8] false [9, 3, 9]) 8 [3, 8] [9, 3, 9] [3, 9] rfl
    ⟨⟨by decide, by decide, by decide⟩, by intro l hl; simp at hl; omega, by
      intro i a b ha hb
      match i, ha, hb with
      | 0, ha, hb => simp at ha hb; omega
      | i + 1, ha, hb => simp at hb⟩ (by decide) (by decide) rfl rfl (by decide) rfl (by decide)
    (by intro x hx; simp only [List.mem_cons, List.not_mem_nil, or_false] at hx
        rcases hx with rfl | rfl | rfl <;> decide +kernel) (by decide +kernel)
    (by intro x; simp only [List.mem_cons, List.not_mem_nil, or_false]
        constructor <;> (intro h; rcases h with rfl | rfl | rfl <;> simp)) (by decide) 77 1 2
  exact ⟨r, h1 0, h2⟩
example : ∃ r, main exDoubles exFp exEnv 0 { exFlags [] false [] with input := none } 77 1 2 = some (ok r) ∧
    EvaluatesLevels exFp exEnv 8 [] [8] 77 2 (2 ^ 8) r := by
  obtain ⟨r, h1, h2⟩ := C75_full_domain exDoubles exFp exEnv { exFlags [] false [] with input := none } 8 rfl (by decide)
    (by decide) (by decide) rfl rfl rfl 77 1 2
  exact ⟨r, h1 0, h2⟩
example : ∃ k0 vals, main exDoubles exFp exEnv 0 (exFlags [] true [9, 3, 9]) 77 1 2 = some (ok (k0, [[vals], [vals]])) := by
  obtain ⟨k0, _, _, vals, h, _⟩ := C75_only_nonzeros exDoubles exFp exEnv (exFlags [] true [9, 3, 9]) 8 [9, 3, 9] [3, 9] rfl
    (by decide) (by decide) (by decide) rfl rfl rfl
    (by intro x hx; simp only [List.mem_cons, List.not_mem_nil, or_false] at hx
        rcases hx with rfl | rfl | rfl <;> decide +kernel) (by decide +kernel)
    (by intro x; simp only [List.mem_cons, List.not_mem_nil, or_false]
        constructor <;> (intro h; rcases h with rfl | rfl | rfl <;> simp)) 77 1 2
  exact ⟨k0, vals, h 0⟩

end Verif
