import Verif.Props.Controller
/-
Removing a node by its IP address: C83. (No code calls deleteNode.)
-/
namespace Verif.Props
open Spec Packet Artnet

/-! ### C83 -/

/-- The state after the node at index `i`, with the reference `r`, has been removed. -/
def withoutNode (c : Ctrl) (i : Nat) (r : Ref) : Ctrl :=
  { c with
    output := delAll c.output (c.heap r).node.outputs
    input := delAll c.input (c.heap r).node.inputs
    nodes := c.nodes.eraseIdx i }

theorem deleteFrom_hit {c : Ctrl} {ip : Bytes} {i n : Nat} {r : Ref} (hi : i < n) (hr : c.nodes[i]? = some r)
    (h : ipOf c r = ip) : c.deleteFrom ip i n = (withoutNode c i r).deleteFrom ip (i + 1) n := by
  rw [Ctrl.deleteFrom, if_pos hi]
  simp only [idxL, hr]
  show (if ip == (c.heap r).node.ip then _ else _) = _
  rw [if_pos (show (ip == (c.heap r).node.ip) = true from beq_iff_eq.mpr h.symm)]
  rfl

theorem deleteFrom_miss {c : Ctrl} {ip : Bytes} {i n : Nat} {r : Ref} (hi : i < n) (hr : c.nodes[i]? = some r)
    (h : ipOf c r ≠ ip) : c.deleteFrom ip i n = c.deleteFrom ip (i + 1) n := by
  rw [Ctrl.deleteFrom, if_pos hi]
  simp only [idxL, hr]
  show (if ip == (c.heap r).node.ip then _ else _) = _
  rw [if_neg (fun e : (ip == (c.heap r).node.ip) = true => h (beq_iff_eq.mp e).symm)]

theorem deleteFrom_end (c : Ctrl) (ip : Bytes) {i n : Nat} (hi : n ≤ i) : c.deleteFrom ip i n = .ok c := by
  rw [Ctrl.deleteFrom, if_neg (by omega)]
  rfl

/-- With fewer entries than the loop has steps, the loop panics. -/
theorem deleteFrom_short (ip : Bytes) (n : Nat) : ∀ (k : Nat) (c : Ctrl) (i : Nat), n - i = k → i < n →
    c.nodes.length < n → c.deleteFrom ip i n = .error .indexOutOfRange := by
  intro k
  induction k with
  | zero => intro c i hk hi _; omega
  | succ k ih =>
    intro c i hk hi hl
    by_cases hin : i < c.nodes.length
    · have hr : c.nodes[i]? = some c.nodes[i] := List.getElem?_eq_getElem hin
      by_cases h : ipOf c c.nodes[i] = ip
      · rw [deleteFrom_hit hi hr h]
        refine ih _ (i + 1) (by omega) (by omega) ?_
        show (c.nodes.eraseIdx i).length < n
        rw [List.length_eraseIdx]
        split <;> omega
      · rw [deleteFrom_miss hi hr h]
        exact ih _ (i + 1) (by omega) (by omega) hl
    · rw [Ctrl.deleteFrom, if_pos hi]
      simp only [idxL, List.getElem?_eq_none (Nat.not_lt.mp hin)]
      rfl

/-- Entries that do not match are passed over. -/
theorem deleteFrom_skip (c : Ctrl) (ip : Bytes) (n : Nat) : ∀ (k i : Nat), i + k ≤ c.nodes.length → i + k ≤ n →
    (∀ (j : Nat) (r : Ref), i ≤ j → j < i + k → c.nodes[j]? = some r → ipOf c r ≠ ip) →
    c.deleteFrom ip i n = c.deleteFrom ip (i + k) n := by
  intro k
  induction k with
  | zero => intros; rfl
  | succ k ih =>
    intro i h1 h2 h
    have hin : i < c.nodes.length := by omega
    rw [deleteFrom_miss (by omega) (List.getElem?_eq_getElem hin)
      (h i _ (Nat.le_refl _) (by omega) (List.getElem?_eq_getElem hin)),
      ih (i + 1) (by omega) (by omega) (fun j r h3 h4 => h j r (by omega) (by omega))]
    congr 1
    omega

/-- C83 as stated: deleteNode removes the node with the given IP address and nothing else, and returns an error
if and only if there is none. -/
def C83_statement : Prop := ∀ (m : Int) (os : List Op) (ip : Bytes), (Ctrl.init m).CanRun os →
  let c := ((Ctrl.init m).run os).1
  ∃ c' failed, c.deleteNode ip = .ok (c', failed) ∧ c'.nodes = c.nodes.filter (fun r => decide (ipOf c r ≠ ip)) ∧
    (failed = true ↔ ∀ r ∈ c.nodes, ipOf c r ≠ ip)

/-- The only node is removed, but an error is returned. -/
theorem C83_false : ¬ C83_statement := by
  intro h
  obtain ⟨c', failed, h1, _, h2⟩ := h 40 [.reply (replyOf ipA 1) 0] ipA.val ⟨trivial, trivial⟩
  have h3 : (((Ctrl.init 40).run [.reply (replyOf ipA 1) 0]).1.deleteNode ipA.val).toOption.map (·.2) = some true := by
    decide +kernel
  rw [h1] at h3
  have h3 : failed = true := Option.some.inj h3
  have h4 : ¬ ∀ r ∈ ((Ctrl.init 40).run [.reply (replyOf ipA 1) 0]).1.nodes,
      ipOf ((Ctrl.init 40).run [.reply (replyOf ipA 1) 0]).1 r ≠ ipA.val := by decide +kernel
  exact h4 (h2.mp h3)

/-- If the node is known, but not the last one in the list, deleteNode panics: the loop goes on to the old
length of the list. -/
theorem C83_panics (c : Ctrl) (ip : Bytes) (i : Nat) (r : Ref) (hr : c.nodes[i]? = some r) (h : ipOf c r = ip)
    (hl : i + 1 < c.nodes.length) : c.deleteNode ip = .error .indexOutOfRange := by
  have gen : ∀ (n i : Nat), i ≤ n → c.nodes[n]? = some r → n + 1 < c.nodes.length →
      c.deleteFrom ip i c.nodes.length = .error .indexOutOfRange := by
    intro n i
    induction hk : n - i generalizing i with
    | zero =>
      intro hi hr hl
      have : i = n := by omega
      subst this
      rw [deleteFrom_hit (by omega) hr h]
      refine deleteFrom_short ip _ _ _ _ rfl hl ?_
      show (c.nodes.eraseIdx i).length < _
      rw [List.length_eraseIdx, if_pos (by omega)]
      omega
    | succ k ih =>
      intro hi hr hl
      have hin : i < c.nodes.length := by omega
      have hg := List.getElem?_eq_getElem hin
      by_cases hm : ipOf c c.nodes[i] = ip
      · rw [deleteFrom_hit hin hg hm]
        refine deleteFrom_short ip _ _ _ _ rfl (by omega) ?_
        show (c.nodes.eraseIdx i).length < _
        rw [List.length_eraseIdx, if_pos hin]
        omega
      · rw [deleteFrom_miss hin hg hm]
        exact ih (i + 1) (by omega) (by omega) hr hl
  rw [Ctrl.deleteNode, gen i 0 (Nat.zero_le _) hr hl]
  rfl

/-- The first of two nodes. -/
example : ∃ r, ((Ctrl.init 40).run [.reply (replyOf ipA 1) 0, .reply (replyOf ipB 1) 5]).1.nodes[0]? = some r ∧
    ipOf ((Ctrl.init 40).run [.reply (replyOf ipA 1) 0, .reply (replyOf ipB 1) 5]).1 r = ipA.val ∧
    0 + 1 < ((Ctrl.init 40).run [.reply (replyOf ipA 1) 0, .reply (replyOf ipB 1) 5]).1.nodes.length :=
  ⟨0, by decide +kernel⟩

/-- C83 as far as it holds: without a node with the IP address nothing changes and an error is returned; if the
last node in the list has it, that node and the routes of all universes it claims are removed, the others stay,
and an error is returned. -/
theorem C83_partial (m : Int) (os : List Op) (ip : Bytes) (h : (Ctrl.init m).CanRun os) :
    let c := ((Ctrl.init m).run os).1
    ((∀ r ∈ c.nodes, ipOf c r ≠ ip) → c.deleteNode ip = .ok (c, true)) ∧
    ∀ (l : List Ref) (r : Ref), c.nodes = l ++ [r] → ipOf c r = ip → ∃ c', c.deleteNode ip = .ok (c', true) ∧
      c'.nodes = l ∧ c'.heap = c.heap ∧
      (∀ a, c'.output.get a = if a ∈ (c.heap r).node.outputs then none else c.output.get a) ∧
      (∀ a, c'.input.get a = if a ∈ (c.heap r).node.inputs then none else c.input.get a) ∧
      (∀ a, c'.output.get a ≠ some r ∧ c'.input.get a ≠ some r) := by
  intro c
  have hi : Inv c := (inv_init m).run os h
  constructor
  · intro hn
    have := deleteFrom_skip c ip c.nodes.length c.nodes.length 0 (by omega) (by omega)
      (fun j r _ _ hr => hn r (List.mem_of_getElem? hr))
    rw [Ctrl.deleteNode, this, deleteFrom_end c ip (by omega)]
    rfl
  · intro l r hl hr
    have hlen : c.nodes.length = l.length + 1 := by rw [hl]; simp
    have hlast : c.nodes[l.length]? = some r := by rw [hl]; simp
    have hd : c.deleteNode ip = .ok (withoutNode c l.length r, true) := by
      rw [Ctrl.deleteNode, deleteFrom_skip c ip c.nodes.length l.length 0 (by omega) (by omega), Nat.zero_add,
        deleteFrom_hit (by omega) hlast hr, deleteFrom_end _ _ (by omega)]
      · rfl
      · intro j s _ hj hs hm
        have hsr := hi.ips s (List.mem_of_getElem? hs) r (List.mem_of_getElem? hlast) (hm.trans hr.symm)
        subst hsr
        have := hi.nodup
        rw [hl] at this hs
        rw [List.getElem?_append_left (by omega)] at hs
        exact (List.nodup_append.mp this).2.2 s (List.mem_of_getElem? hs) s (by simp) rfl
    refine ⟨_, hd, ?_, rfl, fun a => delAll_get _ _ a, fun a => delAll_get _ _ a, ?_⟩
    · show c.nodes.eraseIdx l.length = l
      rw [hl, List.eraseIdx_append_of_length_le (Nat.le_refl _), Nat.sub_self]
      simp
    · intro a
      constructor
      · show (delAll c.output _).get a ≠ some r
        rw [delAll_get]
        split
        · nofun
        · exact fun hg => absurd (hi.out a r hg).2 (by assumption)
      · show (delAll c.input _).get a ≠ some r
        rw [delAll_get]
        split
        · nofun
        · exact fun hg => absurd (hi.inp a r hg).2 (by assumption)

/-- The second of two nodes, which has taken the universe of the first one. -/
example : (Ctrl.init 40).CanRun [.reply (replyOf ipA 1) 0, .reply (replyOf ipB 1) 5] ∧
    ((Ctrl.init 40).run [.reply (replyOf ipA 1) 0, .reply (replyOf ipB 1) 5]).1.nodes = [0] ++ [1] ∧
    ipOf ((Ctrl.init 40).run [.reply (replyOf ipA 1) 0, .reply (replyOf ipB 1) 5]).1 1 = ipB.val :=
  ⟨⟨trivial, trivial, trivial⟩, by decide +kernel⟩

end Verif.Props
