import Verif.Lemmas.Finite
import Verif.Lemmas.Opcode
import Verif.Spec.Registers
/-
Helper lemmas about the generated String methods: decimal rendering is injective, names never collide
with the fallback rendering.
-/
namespace Verif
open Spec Code

theorem repr_inj' {m n : Nat} (h : m.repr = n.repr) : m = n := by
  have h1 : m.repr.toList = n.repr.toList := by rw [h]
  rw [Nat.toList_repr, Nat.toList_repr] at h1
  rw [← Nat.ofDigitChars_ten_toDigits (n := m), h1, Nat.ofDigitChars_ten_toDigits]

/-- `Type(n)` is injective in `n`. -/
theorem fallback_inj (pre : String) {m n : Nat}
    (h : pre ++ m.repr ++ ")" = pre ++ n.repr ++ ")") : m = n := by
  rw [String.append_left_inj] at h
  have h1 : (pre ++ m.repr).toList = (pre ++ n.repr).toList := by rw [h]
  rw [String.toList_append, String.toList_append] at h1
  exact repr_inj' (String.toList_inj.mp (List.append_cancel_left h1))

/-- A name that contains no `(` differs from every `Type(n)`. -/
theorem name_ne_fallback (pre s : String) (n : Nat) (h1 : '(' ∈ pre.toList) (h2 : '(' ∉ s.toList) :
    s ≠ pre ++ n.repr ++ ")" := by
  intro h
  apply h2
  rw [h]
  simp [String.toList_append, h1]

end Verif

namespace Verif
open Spec Code

/-- A table lookup with a fallback rendering. -/
def render {K : Type} [DecidableEq K] (tab : List (K × String)) (pre : String) (num : K → Nat) (k : K) :
    String :=
  match GoMap.get tab k with
  | some s => s
  | none => pre ++ (num k).repr ++ ")"

theorem get_some_mem {K V : Type} [DecidableEq K] {m : List (K × V)} {k : K} {v : V}
    (h : GoMap.get m k = some v) : (k, v) ∈ m := by
  induction m with
  | nil => simp [GoMap.get] at h
  | cons e m ih =>
    obtain ⟨k', v'⟩ := e
    simp only [GoMap.get] at h
    split at h
    · rename_i hk
      injection h with h
      simp [hk, h]
    · exact List.mem_cons_of_mem _ (ih h)

theorem render_inj {K : Type} [DecidableEq K] {tab : List (K × String)} {pre : String} {num : K → Nat}
    (hnum : ∀ a b, num a = num b → a = b) (hpre : '(' ∈ pre.toList)
    (hno : ∀ e ∈ tab, '(' ∉ e.2.toList) (hdis : ∀ e ∈ tab, ∀ e' ∈ tab, e.2 = e'.2 → e.1 = e'.1)
    {a b : K} (h : render tab pre num a = render tab pre num b) : a = b := by
  unfold render at h
  split at h
  · rename_i s hs
    have ha := get_some_mem hs
    split at h
    · rename_i t ht
      exact hdis _ ha _ (get_some_mem ht) h
    · exact absurd h (name_ne_fallback pre s _ hpre (hno _ ha))
  · split at h
    · rename_i t ht
      exact absurd h.symm (name_ne_fallback pre t _ hpre (hno _ (get_some_mem ht)))
    · exact hnum _ _ (fallback_inj pre h)

theorem OpCode.str_eq (o : OpCode) : OpCode.str o = .ok (render opNames "OpCode(" UInt16.toNat o) := by
  have hmap : OpCode.mapTable.map (fun e => (e.1, (strSlice OpCode.name e.2.1 e.2.2).toOption)) =
      opNames.map (fun e => (e.1, some e.2)) := by decide +kernel
  have key : ∀ (m : List (OpCode × Nat × Nat)) (t : List (UInt16 × String)),
      m.map (fun e => (e.1, (strSlice OpCode.name e.2.1 e.2.2).toOption)) =
        t.map (fun e => (e.1, some e.2)) →
      (match GoMap.get m o with
        | some (lo, hi) => strSlice OpCode.name lo hi
        | none => (.ok s!"OpCode({o.toNat})" : Go String)) =
      .ok (render t "OpCode(" UInt16.toNat o) := by
    intro m
    induction m with
    | nil =>
      intro t h
      cases t with
      | nil => rfl
      | cons => simp at h
    | cons e m ih =>
      intro t h
      cases t with
      | nil => simp at h
      | cons f t =>
        obtain ⟨k, lo, hi⟩ := e
        obtain ⟨k', n⟩ := f
        simp only [List.map_cons, List.cons.injEq, Prod.mk.injEq] at h
        obtain ⟨⟨hk, hn⟩, ht⟩ := h
        subst hk
        by_cases hko : k = o
        · subst hko
          simp only [GoMap.get, render, if_true]
          cases hs : strSlice OpCode.name lo hi with
          | ok s => rw [hs] at hn; simp only [Except.toOption] at hn; injection hn with hn; rw [hn]
          | error e => rw [hs] at hn; simp [Except.toOption] at hn
        · have := ih t ht
          simp only [GoMap.get, render, if_neg hko] at this ⊢
          exact this
  exact key _ _ hmap

/-- Boolean comparison of a run-time result with an expected string. -/
def okIs (r : Go String) (s : String) : Bool :=
  match r with
  | .ok t => t == s
  | .error _ => false

theorem okIs_iff {r : Go String} {s : String} (h : okIs r s = true) : r = .ok s := by
  cases r with
  | ok t => simp [okIs] at h; rw [h]
  | error e => simp [okIs] at h

theorem StyleCode.str_eq (o : StyleCode) :
    StyleCode.str o = .ok (render styleNames "StyleCode(" UInt8.toNat o) :=
  okIs_iff (forall_u8 (P := fun o => okIs (StyleCode.str o) _ = true) (by decide +kernel) o)

theorem NodeReportCode.str_eq (o : NodeReportCode) :
    NodeReportCode.str o = .ok (render reportNames "NodeReportCode(" UInt8.toNat o) :=
  okIs_iff (forall_u8 (P := fun o => okIs (NodeReportCode.str o) _ = true) (by decide +kernel) o)

theorem PriorityCode.str_eq (o : PriorityCode) :
    PriorityCode.str o = render priorityNames "PriorityCode(" UInt8.toNat o :=
  forall_u8 (P := fun o => PriorityCode.str o = _) (by decide +kernel) o

end Verif

namespace Verif
open Spec Code

/-- The getter that all flags share. -/
def genGet (k : Fin 8) (s : UInt8) : Bool := (s &&& ((1 : UInt8) <<< UInt8.ofNat k)) > 0

/-- The setter that all flags share. -/
def genSet (k : Fin 8) (s : UInt8) (enable : Bool) : UInt8 :=
  if enable then s ||| ((1 : UInt8) <<< UInt8.ofNat k) else s ||| ((0 : UInt8) <<< UInt8.ofNat k)

theorem flag_generic (f : Flag) (hf : f ∈ flags) :
    ∃ k : Fin 8, f.bit = k ∧ f.get = genGet k ∧ f.set = genSet k := by
  have : ∀ g ∈ flags, ∃ k : Fin 8, g.bit = k ∧ g.get = genGet k ∧ g.set = genSet k := by
    unfold flags
    repeat' first
      | (rw [List.forall_mem_cons]; refine ⟨⟨⟨_, ?_⟩, rfl, rfl, rfl⟩, ?_⟩)
      | exact fun _ h => absurd h List.not_mem_nil
      | decide
  exact this f hf

end Verif
