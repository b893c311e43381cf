import Verif.Spec.HashThreads
import Verif.Lemmas.Res
/-! Helper lemmas on threads that share hash objects. -/
namespace Verif.HashThreads
open Spec

variable {aes : U128 → U128 → U128} {keys : Nat → U128} {c : Call} {mem0 mem mem' : Mem} {l l' : Local}

theorem hashBlock_sigma (key x : U128) : hashBlock aes key x = aes key (Verif.sigma x) ^^^ Verif.sigma x := rfl

/-- Position within the loops. -/
def PosOk (c : Call) (start i : Nat) : Prop :=
  c.input.size = c.out.size ∧ start < c.input.size ∧ i < min (c.input.size - start) 64

/-- The input from block `k` on is as it was. -/
def Kept (c : Call) (mem0 mem : Mem) (k : Nat) : Prop :=
  ∀ j, k ≤ j → j < c.input.size → mem (c.input.data + j) = mem0 (c.input.data + j)

/-- The output before block `k` is as it should be. -/
def DoneTo (aes : U128 → U128 → U128) (keys : Nat → U128) (c : Call) (mem0 mem : Mem) (k : Nat) : Prop :=
  ∀ j < k, mem (c.out.data + j) = hashBlock aes (keys c.object) (mem0 (c.input.data + j))

/-- Blocks `a` to `b` of the batch are encrypted. -/
def Encrypted (aes : U128 → U128 → U128) (keys : Nat → U128) (c : Call) (mem0 mem : Mem) (start a b : Nat) : Prop :=
  ∀ j, a ≤ j → j < b →
    mem (c.out.data + (start + j)) = aes (keys c.object) (Verif.sigma (mem0 (c.input.data + (start + j))))

/-- `sigma_in` is filled up to `k`. -/
def Sigmas (c : Call) (mem0 : Mem) (l : Local) (start k : Nat) : Prop :=
  ∀ j < k, l.sigmaIn j = Verif.sigma (mem0 (c.input.data + (start + j)))

/-- Invariant of a thread. -/
def Inv (aes : U128 → U128 → U128) (keys : Nat → U128) (c : Call) (mem0 mem : Mem) (l : Local) : Prop :=
  match l.pc with
  | .entry => Kept c mem0 mem 0 ∧ ∀ j < c.out.size, mem (c.out.data + j) = mem0 (c.out.data + j)
  | .sigma start i => PosOk c start i ∧ Kept c mem0 mem start ∧ Sigmas c mem0 l start i ∧
      DoneTo aes keys c mem0 mem start
  | .cipher start i => PosOk c start i ∧ Kept c mem0 mem (start + 64) ∧
      Sigmas c mem0 l start (min (c.input.size - start) 64) ∧ DoneTo aes keys c mem0 mem start ∧
      Encrypted aes keys c mem0 mem start 0 i
  | .load start i => PosOk c start i ∧ Kept c mem0 mem (start + 64) ∧
      Sigmas c mem0 l start (min (c.input.size - start) 64) ∧ DoneTo aes keys c mem0 mem (start + i) ∧
      Encrypted aes keys c mem0 mem start i (min (c.input.size - start) 64)
  | .store start i x => PosOk c start i ∧ Kept c mem0 mem (start + 64) ∧
      Sigmas c mem0 l start (min (c.input.size - start) 64) ∧ DoneTo aes keys c mem0 mem (start + i) ∧
      Encrypted aes keys c mem0 mem start i (min (c.input.size - start) 64) ∧
      x = aes (keys c.object) (Verif.sigma (mem0 (c.input.data + (start + i))))
  | .done r => (r = .ok () ∧ c.input.size = c.out.size ∧ DoneTo aes keys c mem0 mem c.input.size) ∨
      (r = .err .invalidArgument ∧ c.input.size ≠ c.out.size ∧
        ∀ j < c.out.size, mem (c.out.data + j) = mem0 (c.out.data + j))

/-- Writes elsewhere do not matter. -/
theorem Inv.frame (h : Inv aes keys c mem0 mem l) (hi : ∀ a, InSpan c.input a → mem' a = mem a)
    (ho : ∀ a, InSpan c.out a → mem' a = mem a) : Inv aes keys c mem0 mem' l := by
  have hi' : ∀ j < c.input.size, mem' (c.input.data + j) = mem (c.input.data + j) :=
    fun j hj => hi _ ⟨by omega, by omega⟩
  have ho' : ∀ j < c.out.size, mem' (c.out.data + j) = mem (c.out.data + j) :=
    fun j hj => ho _ ⟨by omega, by omega⟩
  have hk : ∀ k, Kept c mem0 mem k → Kept c mem0 mem' k := fun k h j h1 h2 => by rw [hi' j h2, h j h1 h2]
  have hd : ∀ k ≤ c.out.size, DoneTo aes keys c mem0 mem k → DoneTo aes keys c mem0 mem' k :=
    fun k hk h j h1 => by rw [ho' j (by omega), h j h1]
  have he : ∀ st a b, st + b ≤ c.out.size → Encrypted aes keys c mem0 mem st a b →
      Encrypted aes keys c mem0 mem' st a b :=
    fun st a b hb h j h1 h2 => by rw [ho' _ (by omega), h j h1 h2]
  unfold Inv at h ⊢
  split at h
  · exact ⟨hk _ h.1, fun j hj => by rw [ho' j hj, h.2 j hj]⟩
  · obtain ⟨⟨e, h1, h2⟩, h3, h4, h5⟩ := h
    exact ⟨⟨e, h1, h2⟩, hk _ h3, h4, hd _ (by omega) h5⟩
  · obtain ⟨⟨e, h1, h2⟩, h3, h4, h5, h6⟩ := h
    exact ⟨⟨e, h1, h2⟩, hk _ h3, h4, hd _ (by omega) h5, he _ _ _ (by omega) h6⟩
  · obtain ⟨⟨e, h1, h2⟩, h3, h4, h5, h6⟩ := h
    exact ⟨⟨e, h1, h2⟩, hk _ h3, h4, hd _ (by omega) h5, he _ _ _ (by omega) h6⟩
  · obtain ⟨⟨e, h1, h2⟩, h3, h4, h5, h6, h7⟩ := h
    exact ⟨⟨e, h1, h2⟩, hk _ h3, h4, hd _ (by omega) h5, he _ _ _ (by omega) h6, h7⟩
  · rcases h with ⟨h1, h2, h3⟩ | ⟨h1, h2, h3⟩
    · exact Or.inl ⟨h1, h2, hd _ (by omega) h3⟩
    · exact Or.inr ⟨h1, h2, fun j hj => by rw [ho' j hj, h3 j hj]⟩

theorem batchSize_eq (size start : Nat) : batchSize size start = min (size - start) 64 := rfl

theorem batchOrReturn_inv {start : Nat} {f : Nat → U128} (e : c.input.size = c.out.size)
    (hk : Kept c mem0 mem start) (hd : DoneTo aes keys c mem0 mem (min c.input.size start)) :
    Inv aes keys c mem0 mem ⟨batchOrReturn c.input.size start, f⟩ := by
  unfold batchOrReturn
  split
  · rename_i h
    rw [Nat.min_eq_right (by omega)] at hd
    exact ⟨⟨e, h, by omega⟩, hk, fun j hj => by omega, hd⟩
  · rw [Nat.min_eq_left (by omega)] at hd
    exact Or.inl ⟨rfl, e, hd⟩

/-- The invariant is kept by the thread's own steps. -/
theorem Inv.step (hc : Keeps c) (h : Inv aes keys c mem0 mem l)
    (hs : HashThreads.step aes keys c mem l = some (mem', l')) : Inv aes keys c mem0 mem' l' := by
  obtain ⟨pc, sg⟩ := l
  unfold Inv at h
  unfold HashThreads.step at hs
  cases pc with
  | entry =>
    dsimp only at h hs
    split at hs
    · rename_i hne
      cases hs
      exact Or.inr ⟨rfl, hne, h.2⟩
    · rename_i he
      cases hs
      exact batchOrReturn_inv (by omega) h.1 (fun j hj => by omega)
  | sigma st i =>
    dsimp only at h hs
    obtain ⟨⟨e, h1, h2⟩, h3, h4, h5⟩ := h
    rw [batchSize_eq] at hs
    cases hs
    have hsg : Sigmas c mem0 ⟨.entry, fun j => if j = i then Verif.sigma (mem (c.input.data + (st + i))) else sg j⟩
        st (i + 1) := by
      intro j hj
      show (if j = i then _ else _) = _
      by_cases hji : j = i
      · subst hji
        rw [if_pos rfl, h3 (st + j) (by omega) (by omega)]
      · rw [if_neg hji]
        exact h4 j (by omega)
    by_cases hb : i + 1 < min (c.input.size - st) 64
    · rw [if_pos hb]
      exact ⟨⟨e, h1, hb⟩, h3, hsg, h5⟩
    · rw [if_neg hb]
      have hb' : min (c.input.size - st) 64 = i + 1 := by omega
      refine ⟨⟨e, h1, by omega⟩, fun j hj => h3 j (by omega), ?_, h5, fun j hj hj' => by omega⟩
      rw [hb']
      exact hsg
  | cipher st i =>
    dsimp only at h hs
    obtain ⟨⟨e, h1, h2⟩, h3, h4, h5, h6⟩ := h
    rw [batchSize_eq] at hs
    cases hs
    have hk : Kept c mem0 (fun a => if a = c.out.data + (st + i) then aes (keys c.object) (sg i) else mem a)
        (st + 64) := by
      intro j hj hj'
      show (if _ then _ else _) = _
      rw [if_neg (by unfold Keeps at hc; omega)]
      exact h3 j hj hj'
    have hd : DoneTo aes keys c mem0
        (fun a => if a = c.out.data + (st + i) then aes (keys c.object) (sg i) else mem a) st := by
      intro j hj
      show (if _ then _ else _) = _
      rw [if_neg (by omega)]
      exact h5 j hj
    have he : Encrypted aes keys c mem0
        (fun a => if a = c.out.data + (st + i) then aes (keys c.object) (sg i) else mem a) st 0 (i + 1) := by
      intro j hj hj'
      show (if _ then _ else _) = _
      by_cases hji : j = i
      · subst hji
        rw [if_pos rfl, show sg j = _ from h4 j h2]
      · rw [if_neg (by omega)]
        exact h6 j hj (by omega)
    by_cases hb : i + 1 < min (c.input.size - st) 64
    · rw [if_pos hb]
      exact ⟨⟨e, h1, hb⟩, hk, h4, hd, he⟩
    · rw [if_neg hb]
      have hb' : min (c.input.size - st) 64 = i + 1 := by omega
      refine ⟨⟨e, h1, by omega⟩, hk, h4, hd, ?_⟩
      rw [hb']
      exact he
  | load st i =>
    dsimp only at h hs
    obtain ⟨⟨e, h1, h2⟩, h3, h4, h5, h6⟩ := h
    cases hs
    exact ⟨⟨e, h1, h2⟩, h3, h4, h5, h6, h6 i (Nat.le_refl _) h2⟩
  | store st i x =>
    dsimp only at h hs
    obtain ⟨⟨e, h1, h2⟩, h3, h4, h5, h6, h7⟩ := h
    rw [batchSize_eq] at hs
    cases hs
    have hk : Kept c mem0 (fun a => if a = c.out.data + (st + i) then x ^^^ sg i else mem a) (st + 64) := by
      intro j hj hj'
      show (if _ then _ else _) = _
      rw [if_neg (by unfold Keeps at hc; omega)]
      exact h3 j hj hj'
    have hd : DoneTo aes keys c mem0
        (fun a => if a = c.out.data + (st + i) then x ^^^ sg i else mem a) (st + (i + 1)) := by
      intro j hj
      show (if _ then _ else _) = _
      by_cases hji : j = st + i
      · subst hji
        rw [if_pos rfl, h7, show sg i = _ from h4 i h2, hashBlock_sigma]
      · rw [if_neg (by omega)]
        exact h5 j (by omega)
    by_cases hb : i + 1 < min (c.input.size - st) 64
    · rw [if_pos hb]
      refine ⟨⟨e, h1, hb⟩, hk, h4, hd, ?_⟩
      intro j hj hj'
      show (if _ then _ else _) = _
      rw [if_neg (by omega)]
      exact h6 j (by omega) hj'
    · rw [if_neg hb]
      refine batchOrReturn_inv e hk ?_
      intro j hj
      exact hd j (by simp only [Aes128FixedKeyHash.kBatchSize] at hj; omega)
  | done r => cases hs

/-- A step writes only to the thread's output. -/
theorem step_writes (h : Inv aes keys c mem0 mem l)
    (hs : HashThreads.step aes keys c mem l = some (mem', l')) {a : Nat} (ha : ¬ InSpan c.out a) : mem' a = mem a := by
  obtain ⟨pc, sg⟩ := l
  unfold Inv at h
  unfold HashThreads.step at hs
  cases pc with
  | entry =>
    dsimp only at hs
    split at hs <;> cases hs <;> rfl
  | sigma st i => cases hs; rfl
  | load st i => cases hs; rfl
  | done r => cases hs
  | cipher st i =>
    obtain ⟨⟨e, h1, h2⟩, _⟩ := h
    cases hs
    show (if _ then _ else _) = _
    rw [if_neg]
    rintro rfl
    exact ha ⟨by omega, by omega⟩
  | store st i x =>
    obtain ⟨⟨e, h1, h2⟩, _⟩ := h
    cases hs
    show (if _ then _ else _) = _
    rw [if_neg]
    rintro rfl
    exact ha ⟨by omega, by omega⟩

/-- Accesses are within the spans. -/
theorem nextAccess_in (h : Inv aes keys c mem0 mem l) {a : Access} (ha : nextAccess c l = some a) :
    match a with
    | .read x => InSpan c.input x ∨ InSpan c.out x
    | .write x => InSpan c.out x := by
  obtain ⟨pc, sg⟩ := l
  unfold Inv at h
  unfold nextAccess at ha
  cases pc with
  | entry => cases ha
  | done r => cases ha
  | sigma st i =>
    obtain ⟨⟨e, h1, h2⟩, _⟩ := h
    cases ha
    exact Or.inl ⟨by omega, by omega⟩
  | load st i =>
    obtain ⟨⟨e, h1, h2⟩, _⟩ := h
    cases ha
    exact Or.inr ⟨by omega, by omega⟩
  | cipher st i =>
    obtain ⟨⟨e, h1, h2⟩, _⟩ := h
    cases ha
    exact ⟨by omega, by omega⟩
  | store st i x =>
    obtain ⟨⟨e, h1, h2⟩, _⟩ := h
    cases ha
    exact ⟨by omega, by omega⟩

/-- Steps left. -/
def left (c : Call) (l : Local) : Nat :=
  match l.pc with
  | .entry => 1 + 4 * c.input.size
  | .sigma start i => 4 * (c.input.size - start) - i
  | .cipher start i => 4 * (c.input.size - start) - min (c.input.size - start) 64 - i
  | .load start i => 4 * (c.input.size - start) - 2 * min (c.input.size - start) 64 - 2 * i
  | .store start i _ => 4 * (c.input.size - start) - 2 * min (c.input.size - start) 64 - 2 * i - 1
  | .done _ => 0

theorem left_batchOrReturn (start : Nat) (f : Nat → U128) :
    left c ⟨batchOrReturn c.input.size start, f⟩ = 4 * (c.input.size - start) := by
  unfold batchOrReturn
  split
  · show 4 * (c.input.size - start) - 0 = _
    omega
  · show 0 = _
    omega

theorem left_step (h : Inv aes keys c mem0 mem l)
    (hs : HashThreads.step aes keys c mem l = some (mem', l')) : left c l' + 1 ≤ left c l := by
  obtain ⟨pc, sg⟩ := l
  unfold Inv at h
  unfold HashThreads.step at hs
  cases pc with
  | entry =>
    dsimp only at hs
    split at hs
    · cases hs
      show 0 + 1 ≤ 1 + 4 * c.input.size
      omega
    · cases hs
      rw [left_batchOrReturn]
      show _ ≤ 1 + 4 * c.input.size
      omega
  | done r => cases hs
  | sigma st i =>
    obtain ⟨⟨e, h1, h2⟩, _⟩ := h
    dsimp only at hs
    rw [batchSize_eq] at hs
    cases hs
    by_cases hb : i + 1 < min (c.input.size - st) 64
    · rw [if_pos hb]
      show 4 * (c.input.size - st) - (i + 1) + 1 ≤ 4 * (c.input.size - st) - i
      omega
    · rw [if_neg hb]
      show 4 * (c.input.size - st) - min (c.input.size - st) 64 - 0 + 1 ≤ 4 * (c.input.size - st) - i
      omega
  | cipher st i =>
    obtain ⟨⟨e, h1, h2⟩, _⟩ := h
    dsimp only at hs
    rw [batchSize_eq] at hs
    cases hs
    by_cases hb : i + 1 < min (c.input.size - st) 64
    · rw [if_pos hb]
      show 4 * (c.input.size - st) - min (c.input.size - st) 64 - (i + 1) + 1 ≤
        4 * (c.input.size - st) - min (c.input.size - st) 64 - i
      omega
    · rw [if_neg hb]
      show 4 * (c.input.size - st) - 2 * min (c.input.size - st) 64 - 2 * 0 + 1 ≤
        4 * (c.input.size - st) - min (c.input.size - st) 64 - i
      omega
  | load st i =>
    obtain ⟨⟨e, h1, h2⟩, _⟩ := h
    cases hs
    show 4 * (c.input.size - st) - 2 * min (c.input.size - st) 64 - 2 * i - 1 + 1 ≤
        4 * (c.input.size - st) - 2 * min (c.input.size - st) 64 - 2 * i
    omega
  | store st i x =>
    obtain ⟨⟨e, h1, h2⟩, _⟩ := h
    dsimp only at hs
    rw [batchSize_eq] at hs
    cases hs
    by_cases hb : i + 1 < min (c.input.size - st) 64
    · rw [if_pos hb]
      show 4 * (c.input.size - st) - 2 * min (c.input.size - st) 64 - 2 * (i + 1) + 1 ≤
        4 * (c.input.size - st) - 2 * min (c.input.size - st) 64 - 2 * i - 1
      omega
    · rw [if_neg hb, left_batchOrReturn]
      show 4 * (c.input.size - (st + 64)) + 1 ≤ 4 * (c.input.size - st) - 2 * min (c.input.size - st) 64 - 2 * i - 1
      omega

/-- Steps left of all threads. -/
def leftAll : List Call → List Local → Nat
  | c :: cs, l :: ls => left c l + leftAll cs ls
  | _, _ => 0

theorem leftAll_set : ∀ {cs : List Call} {ls : List Local} {i : Nat} {c : Call} {l l' : Local},
    cs[i]? = some c → ls[i]? = some l → left c l' + 1 ≤ left c l → leftAll cs (ls.set i l') + 1 ≤ leftAll cs ls
  | c :: cs, l :: ls, 0, c', x, l', h1, h2, h => by
    cases h1
    cases h2
    show left c l' + leftAll cs ls + 1 ≤ left c l + leftAll cs ls
    omega
  | c :: cs, l :: ls, i + 1, c', x, l', h1, h2, h => by
    have := leftAll_set (cs := cs) (ls := ls) (i := i) h1 h2 h
    show left c l + leftAll cs (ls.set i l') + 1 ≤ left c l + leftAll cs ls
    omega
  | [], _, i, _, _, _, h1, _, _ => by simp at h1
  | _ :: _, [], i, _, _, _, _, h2, _ => by simp at h2

theorem leftAll_start : ∀ (cs : List Call) (ls : List Local), (∀ l ∈ ls, l.pc = .entry) →
    leftAll cs ls ≤ (cs.map fun c => 1 + 4 * c.input.size).sum
  | [], _, _ => by simp [leftAll]
  | _ :: _, [], _ => by simp [leftAll]
  | c :: cs, l :: ls, h => by
    have := leftAll_start cs ls (fun l hl => h l (List.mem_cons_of_mem _ hl))
    have e : left c l = 1 + 4 * c.input.size := by
      unfold left
      rw [h l (List.mem_cons_self ..)]
    show left c l + leftAll cs ls ≤ _
    simp only [List.map_cons, List.sum_cons]
    omega

/-- Invariant of the whole system. -/
structure SysInv (aes : U128 → U128 → U128) (calls : List Call) (s0 : State) (n : Nat) (s : State) : Prop where
  keys : s.keys = s0.keys
  len : s.locals.length = calls.length
  each : ∀ (i : Nat) (c : Call) (l : Local), calls[i]? = some c → s.locals[i]? = some l →
    Inv aes s0.keys c s0.mem s.mem l
  other : ∀ a, (∀ c ∈ calls, ¬ InSpan c.out a) → s.mem a = s0.mem a
  steps : n + leftAll calls s.locals ≤ (calls.map fun c => 1 + 4 * c.input.size).sum

theorem sysInv {calls : List Call} {s0 s : State} {n : Nat} (hsep : Separate calls) (hk : ∀ c ∈ calls, Keeps c)
    (h0 : Started calls s0) (hr : Reach aes calls s0 n s) : SysInv aes calls s0 n s := by
  induction hr with
  | start =>
    refine ⟨rfl, h0.1, ?_, fun _ _ => rfl, ?_⟩
    · intro i c l hc hl
      have := h0.2 l (List.mem_of_getElem? hl)
      unfold Inv
      rw [this]
      exact ⟨fun _ _ _ => rfl, fun _ _ => rfl⟩
    · have := leftAll_start calls s0.locals h0.2
      omega
  | next hr hs ih =>
    obtain @⟨i, c, l, l', mem', hc, hl, hst⟩ := hs
    rename_i s
    have hi := ih.each i c l hc hl
    rw [ih.keys] at hst
    have hw : ∀ a, ¬ InSpan c.out a → mem' a = s.mem a := fun a ha => step_writes hi hst ha
    refine ⟨ih.keys, by simpa using ih.len, ?_, ?_, ?_⟩
    · intro j c' x hc' hx
      by_cases hij : i = j
      · subst hij
        rw [hc] at hc'
        cases hc'
        have hlt := (List.getElem?_eq_some_iff.mp hl).1
        rw [show ({ s with mem := mem', locals := s.locals.set i l' } : State).locals = s.locals.set i l' from rfl,
          List.getElem?_set_self hlt] at hx
        cases hx
        exact Inv.step (hk c (List.mem_of_getElem? hc)) hi hst
      · rw [show ({ s with mem := mem', locals := s.locals.set i l' } : State).locals = s.locals.set i l' from rfl,
          List.getElem?_set_ne hij] at hx
        obtain ⟨d1, d2⟩ := hsep i j c c' hc hc' hij
        exact (ih.each j c' x hc' hx).frame (fun a ha => hw a fun h => d1 a ⟨h, ha⟩)
          (fun a ha => hw a fun h => d2 a ⟨h, ha⟩)
    · intro a ha
      show mem' a = _
      rw [hw a (ha c (List.mem_of_getElem? hc)), ih.other a ha]
    · have h1 := left_step hi hst
      have h2 := leftAll_set hc hl h1
      have h3 := ih.steps
      show _ + 1 + leftAll calls (s.locals.set i l') ≤ _
      omega

/-- A thread that has not returned can go on. -/
theorem step_some (aes : U128 → U128 → U128) (keys : Nat → U128) (c : Call) (mem : Mem) (l : Local)
    (h : ∀ r, l.pc ≠ .done r) : ∃ p, HashThreads.step aes keys c mem l = some p := by
  obtain ⟨pc, sg⟩ := l
  unfold HashThreads.step
  cases pc with
  | entry =>
    dsimp only
    split
    · exact ⟨_, rfl⟩
    · exact ⟨_, rfl⟩
  | done r => exact absurd rfl (h r)
  | _ => exact ⟨_, rfl⟩

end Verif.HashThreads
