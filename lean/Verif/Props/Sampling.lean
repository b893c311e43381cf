import Verif.Lemmas.Sampling
/-!
# C51: elements from pseudorandom bytes
-/
namespace Verif
open Res Spec

/-- C51: if there are enough bytes, a byte string is converted to exactly the elements given by the
specification: integers side by side for types without `IntModN`, and otherwise one element whose
integers are sampled one after the other from a 128-bit state. -/
theorem C51_elements (t : Ty) (b : Bytes) (hb : t.bytesRead ≤ b.length) :
    ∃ xs, t.helper.convertBytesToArrayOf b = ok xs ∧ xs.map (numbersOf t) = elementsFrom t b := by
  obtain ⟨xs, hx, hlen⟩ := t.convert_ok b hb
  refine ⟨xs, hx, ?_⟩
  unfold Helper.convertBytesToArrayOf at hx
  unfold elementsFrom
  rw [t.canDirect_eq] at hx
  by_cases hm : t.noMod = true
  · rw [if_pos hm] at hx ⊢
    have hsz : (t.helper.totalBitSize + 7) / 8 = t.leafBytes := by
      rw [Ty.totalBitSize_eq t hm]; omega
    dsimp only at hx
    rw [hsz] at hx
    obtain ⟨_, _, hx⟩ := bind_eq_ok.mp hx
    rw [t.elementsPerBlock_eq, if_pos hm] at hx hlen
    generalize (if t.leafBytes ≤ 16 then 16 / t.leafBytes else 1) = n at hx hlen ⊢
    apply List.ext_getElem (by simp [hlen])
    intro i h1 h2
    simp only [List.length_map, List.length_range] at h1 h2
    rw [List.getElem_map, List.getElem_map, List.getElem_range]
    have := (mapRes_eq_ok.mp hx).2 i (by simpa using h2) h1
    rw [List.getElem_range] at this
    obtain ⟨s, hs, he⟩ := bind_eq_ok.mp this
    unfold Helper.fromBytes at he
    rw [t.canDirect_eq, if_pos hm] at he
    rw [t.directly_spec hm s _ he]
    unfold substr at hs
    split at hs
    · cases hs
    · simp only [ok.injEq] at hs
      rw [← hs, stored_take _ _ _ (Nat.le_of_eq (leafBytes_eq t))]
  · rw [if_neg hm] at hx ⊢
    obtain ⟨a, ha, hx⟩ := bind_eq_ok.mp hx
    simp only [ok.injEq] at hx
    rw [← hx]
    unfold Helper.fromBytes at ha
    rw [t.canDirect_eq, if_neg hm] at ha
    obtain ⟨s, h1, ha⟩ := bind_eq_ok.mp ha
    obtain ⟨block, h2, ha⟩ := bind_eq_ok.mp ha
    obtain ⟨rest, h3, ha⟩ := bind_eq_ok.mp ha
    obtain ⟨⟨a', block', rest'⟩, h4, ha⟩ := bind_eq_ok.mp ha
    simp only [ok.injEq] at ha
    subst ha
    obtain ⟨e1, e2⟩ := fresh_spec (w := .w128) h1 h2 h3
    have := (t.sample_spec false block rest _ _ _ h4).1
    have e1 : block.toNat = leAt b 0 16 := e1
    have e2 : rest = b.drop 16 := e2
    rw [List.map_cons, List.map_nil, this, e2, ← e1]

/-- A pair of a 16-bit integer and a residue modulo 10 from 18 bytes, and two 64-bit integers from 16. -/
example : (Ty.tuple (.cons (.uint .w16) (.one (.intModN .w32 10#128 (by decide) (by decide))))).bytesRead = 18 ∧
    elementsFrom (.tuple (.cons (.uint .w16) (.one (.intModN .w32 10#128 (by decide) (by decide)))))
      [1, 2, 0, 0, 0, 0, 0, 0, 0, 0, 0, 0, 0, 0, 0, 0, 5, 0] = [[513, 5]] ∧
    elementsFrom (.uint .w64) [1, 0, 0, 0, 0, 0, 0, 0, 2, 0, 0, 0, 0, 0, 0, 0] = [[1], [2]] := by
  decide +kernel

end Verif
