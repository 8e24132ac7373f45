import Verif.Lemmas.Buffers
/-
How many different addresses there are, and what the entries of the node table look like.
-/
namespace Verif.Artnet
open Spec Packet Code

/-- Different numbers below `n` are at most `n`. -/
theorem codes_below {α : Type} (f : α → Nat) (n : Nat) {l : List α} (hn : l.Nodup) (hf : ∀ x ∈ l, f x < n)
    (hi : ∀ x ∈ l, ∀ y ∈ l, f x = f y → x = y) : l.length ≤ n := by
  have h1 : (l.map f).Nodup := by
    rw [List.Nodup, List.pairwise_map]
    refine List.Pairwise.imp_of_mem ?_ hn
    intro x y hx hy hne e
    exact hne (hi x hx y hy e)
  have h2 : l.map f ⊆ List.range n := by
    intro k hk
    obtain ⟨x, hx, rfl⟩ := List.mem_map.mp hk
    exact List.mem_range.mpr (hf x hx)
  have := h1.length_le_of_subset h2
  simpa using this

/-- There are 2^32 addresses of four bytes. -/
theorem addresses_bound {l : List Bytes} (hn : l.Nodup) (h4 : ∀ x ∈ l, x.length = 4) : l.length ≤ 4294967296 := by
  refine codes_below (fun x : Bytes => match x with
    | [a, b, c, d] => a.toNat * 16777216 + b.toNat * 65536 + c.toNat * 256 + d.toNat
    | _ => 0) _ hn ?_ ?_
  · intro x hx
    match x, h4 x hx with
    | [a, b, c, d], _ =>
      have := a.toNat_lt; have := b.toNat_lt; have := c.toNat_lt; have := d.toNat_lt
      simp only
      omega
  · intro x hx y hy
    match x, h4 x hx, y, h4 y hy with
    | [a, b, c, d], _, [a', b', c', d'], _ =>
      have := a.toNat_lt; have := b.toNat_lt; have := c.toNat_lt; have := d.toNat_lt
      have := a'.toNat_lt; have := b'.toNat_lt; have := c'.toNat_lt; have := d'.toNat_lt
      intro e
      simp only at e
      have e1 : a.toNat = a'.toNat := by omega
      have e2 : b.toNat = b'.toNat := by omega
      have e3 : c.toNat = c'.toNat := by omega
      have e4 : d.toNat = d'.toNat := by omega
      rw [UInt8.toNat_inj.mp e1, UInt8.toNat_inj.mp e2, UInt8.toNat_inj.mp e3, UInt8.toNat_inj.mp e4]

theorem config_ports (p : ArtPollReply) : (configFromArtPollReply p).outputs.length ≤ 4 := by
  rw [configFromArtPollReply_eq]
  have : (visited p 0).length ≤ 4 := by
    unfold visited
    exact Nat.le_trans (List.length_filter_le _ _) (by decide)
  simp only [NodeConfig.outputs, List.length_map]
  generalize visited p 0 = l at this
  have h : ∀ l : List (Fin 4), (l.flatMap (outAt p)).length ≤ l.length := by
    intro l
    induction l with
    | nil => simp
    | cons i l ih =>
      have : (outAt p i).length ≤ 1 := by unfold outAt; split <;> simp
      simp only [List.flatMap_cons, List.length_append, List.length_cons]
      omega
  exact Nat.le_trans (h l) this

/-- The configuration of every node comes from a reply. -/
theorem node_reply (m : Int) (os : List Op) (h : (Ctrl.init m).CanRun os) (r : Ref)
    (hr : r < ((Ctrl.init m).run os).1.next) :
    ∃ p, (((Ctrl.init m).run os).1.heap r).node = configFromArtPollReply p := by
  have gen : ∀ (os : List Op) (c : Ctrl), Inv c → c.CanRun os →
      (∀ r, r < c.next → ∃ p, (c.heap r).node = configFromArtPollReply p) →
      ∀ r, r < (c.run os).1.next → ∃ p, ((c.run os).1.heap r).node = configFromArtPollReply p := by
    intro os
    induction os with
    | nil => intro c _ _ h; exact h
    | cons o os ih =>
      intro c hi hcan hp
      refine ih (c.step o).1 (hi.step o hcan.1) hcan.2 ?_
      intro r hr
      rcases node_step hi o hcan.1 hr with ⟨h1, h2⟩ | ⟨p, _, _, _, h2, _⟩
      · rw [h2]; exact hp r h1
      · exact ⟨p, h2⟩
  exact gen os _ (inv_init m) h (fun r hr => absurd hr (Nat.not_lt_zero r)) r hr

/-- Lists of at most `k` elements, joined. -/
theorem flat_bound {α β : Type} (f : α → List β) (k : Nat) (l : List α) (h : ∀ x ∈ l, (f x).length ≤ k) :
    (l.flatMap f).length ≤ k * l.length := by
  induction l with
  | nil => simp
  | cons x l ih =>
    have h1 := h x List.mem_cons_self
    have h2 := ih (fun y hy => h y (List.mem_cons_of_mem _ hy))
    simp only [List.flatMap_cons, List.length_append, List.length_cons, Nat.mul_succ]
    omega

end Verif.Artnet
