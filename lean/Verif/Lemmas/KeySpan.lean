import Verif.Spec.KeySpan
import Verif.Lemmas.Accept
import Verif.Lemmas.BenchmarkKeys
/-!
# Lemmas for C86
-/
namespace Verif
open Res Spec

variable {κ : Type}

theorem refers_size {s : KeySpan κ} {keys : List κ} (h : Refers s keys) : s.size = keys.length := by
  cases h with
  | direct => rfl
  | pointers => simp [KeySpan.size]

theorem refers_get {s : KeySpan κ} {keys : List κ} (h : Refers s keys) (i : Nat) (hi : i < keys.length) :
    s.get i = ok keys[i] := by
  cases h with
  | direct => exact rd_lt hi
  | pointers =>
    unfold KeySpan.get
    dsimp only
    rw [rd_lt (by simpa using hi), bind_ok, List.getElem_map]; rfl

theorem dangles_lt {s : KeySpan κ} {i : Nat} (h : Dangles s i) : i < s.size := by
  obtain ⟨ps, rfl, h⟩ := h
  exact (List.getElem?_eq_some_iff.mp h).1

theorem dangles_get {s : KeySpan κ} {i : Nat} (h : Dangles s i) : s.get i = ub := by
  obtain ⟨ps, rfl, h⟩ := h
  obtain ⟨hi, h⟩ := List.getElem?_eq_some_iff.mp h
  unfold KeySpan.get
  dsimp only
  rw [rd_lt hi, bind_ok, h]; rfl

/-- Accesses inside the span give an object or are undefined. -/
theorem get_cases (s : KeySpan κ) {i : Nat} (hi : i < s.size) : (∃ k, s.get i = ok k) ∨ s.get i = ub := by
  cases s with
  | direct ks => exact Or.inl ⟨_, rd_lt hi⟩
  | pointers ps =>
    unfold KeySpan.get
    dsimp only
    rw [rd_lt hi, bind_ok]
    rcases ps[i]'hi with _ | k
    · exact Or.inr rfl
    · exact Or.inl ⟨k, rfl⟩

theorem mapRes_get {β : Type} {κ : Type} {s : KeySpan κ} {keys : List κ} (h : Refers s keys) (f : κ → Res β) :
    (n : Nat) → n ≤ keys.length → mapRes (fun i => s.get i >>= f) (List.range n) = mapRes f (keys.take n)
  | 0, _ => by simp
  | n + 1, hn => by
    rw [List.range_succ, mapRes_append, mapRes_get h f n (by omega),
      ← List.take_append_getElem (l := keys) (i := n) (by omega), mapRes_append]
    congr 1
    funext a
    congr 1
    rw [mapRes_cons, mapRes_cons, refers_get h n (by omega), bind_ok]
    rfl

theorem bind_ok_right {α : Type} (x : Res α) : (x >>= fun a => ok a) = x := by cases x <;> rfl

theorem mapRes_get_take {κ : Type} {s : KeySpan κ} {keys : List κ} (h : Refers s keys) {n : Nat}
    (hn : n ≤ keys.length) : mapRes s.get (List.range n) = ok (keys.take n) := by
  have := mapRes_get h (fun k => ok k) n hn
  rw [mapRes_congr (g := s.get) (fun i _ => bind_ok_right _)] at this
  rw [this]
  have e := mapRes_eq_ok_map (f := fun k : κ => ok k) (g := fun k => k) (l := keys.take n) (fun _ _ => rfl)
  rwa [List.map_id'] at e

/-- A loop over a span with a pointer to no object is undefined if it does nothing but read. -/
theorem mapRes_get_dangles {κ : Type} {s : KeySpan κ} {i n : Nat} (h : Dangles s i) (hi : i < n) (hn : n ≤ s.size) :
    mapRes s.get (List.range n) = ub :=
  mapRes_ub (fun j hj => get_cases s (by rw [List.mem_range] at hj; omega))
    ⟨i, List.mem_range.mpr hi, dangles_get h⟩

theorem mapRes_check {α : Type} (f : α → Res Unit) : (l : List α) →
    mapRes (fun a => f a >>= fun _ => ok a) l = (mapRes f l >>= fun _ => ok l)
  | [] => rfl
  | a :: l => by
    have ih := mapRes_check f l
    rw [mapRes_cons, ih]
    simp only [mapRes]
    cases f a <;> try rfl
    cases mapRes f l <;> rfl

theorem validateSpan_refers (d : Dpf) {s : KeySpan DpfKey} {keys : List DpfKey} (h : Refers s keys) :
    d.validateSpan s = (mapRes d.pv.validateDpfKey keys >>= fun _ => ok keys) := by
  unfold Dpf.validateSpan
  rw [refers_size h]
  have := mapRes_get h (fun k => d.pv.validateDpfKey k >>= fun _ => ok k) keys.length (by omega)
  rw [List.take_length, mapRes_check] at this
  exact this

/-- If the callback leaves the points alone, reading them anew makes no difference. -/
theorem applyLoopReading_eq {α σ : Type} (d : Dpf) (env : Env) (H : Helper α) (keys : List DpfKey)
    (points : σ → List U128) (r : Int) (op : σ → List α → Bool × σ) (ho : ∀ s v, points (op s v).2 = points s) :
    (hs : List Nat) → (st : Dpf.ApplyState) → (s : σ) →
    d.applyLoopReading env H keys points r op hs st s = d.applyLoop env H keys (points s) r op hs st s
  | [], _, _ => rfl
  | h :: hs, st, s => by
    unfold Dpf.applyLoopReading Dpf.applyLoop
    congr 1
    funext x
    dsimp only
    split
    · rw [applyLoopReading_eq d env H keys points r op ho hs _ _, ho]
    · rfl

end Verif
