import Verif.Spec.Host
/-
net.IP.Equal compares the long forms.
-/
namespace Verif.Conc
open Spec

theorem ipEqual_longForm (a b : Bytes) : ipEqual a b = true ↔ longForm a = longForm b := by
  have hp : v4InV6Prefix = [0, 0, 0, 0, 0, 0, 0, 0, 0, 0, 255, 255] := rfl
  have key : ∀ x y : Bytes, y.length = 16 →
      ((y.take 12 == v4InV6Prefix && x == y.drop 12) = true ↔ v4InV6Prefix ++ x = y) := by
    intro x y hy
    rw [Bool.and_eq_true, beq_iff_eq, beq_iff_eq]
    constructor
    · rintro ⟨h1, h2⟩
      rw [← h1, h2, List.take_append_drop]
    · rintro rfl
      exact ⟨List.take_left' rfl, (List.drop_left' (l₁ := v4InV6Prefix) (i := 12) rfl).symm⟩
  unfold ipEqual longForm
  rw [← hp]
  have hl : ∀ x : Bytes, (v4InV6Prefix ++ x).length = 12 + x.length := fun x => by rw [List.length_append]; rfl
  split
  · rename_i h
    rw [h, beq_iff_eq]
    split
    · exact ⟨fun e => by rw [e], fun e => List.append_cancel_left e⟩
    · exact Iff.rfl
  · rename_i hne
    split
    · rename_i h
      rw [if_pos h.1, if_neg (by omega)]
      exact key a b h.2
    · rename_i h1
      split
      · rename_i h
        rw [if_neg (by omega), if_pos h.2]
        have := key b a h.1
        rw [eq_comm (a := a), ← this]
        simp only [Bool.and_eq_true, beq_iff_eq]
        exact ⟨fun e => ⟨e.1, e.2.symm⟩, fun e => ⟨e.1, e.2.symm⟩⟩
      · rename_i h2
        constructor
        · intro e; cases e
        · intro e
          have := congrArg List.length e
          split at this <;> split at this <;> (try simp only [hl] at this) <;> omega

end Verif.Conc
