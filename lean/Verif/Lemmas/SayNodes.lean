import Verif.Lemmas.Say
/-
The entries about nodes follow the table of nodes.
-/
namespace Verif.Conc
open Packet Code Artnet Spec Props

def tell (l : List Line) (t : List (Bytes × Bytes)) : List (Bytes × Bytes) := l.foldl Line.follow t

theorem map_eraseIdx {α β : Type} (f : α → β) : ∀ (l : List α) (i : Nat), (l.eraseIdx i).map f = (l.map f).eraseIdx i
  | [], _ => rfl
  | _ :: _, 0 => rfl
  | x :: l, i + 1 => by
    simp only [List.eraseIdx_cons_succ, List.map_cons]
    rw [map_eraseIdx f l i]

theorem nodeNames_nodup {c : Ctrl} (h : Inv c) : (nodeNames c).Nodup := by
  have hips := h.ips
  have hn := h.nodup
  unfold nodeNames
  generalize c.nodes = l at hips hn
  induction l with
  | nil => exact List.nodup_nil
  | cons r l ih =>
    rw [List.map_cons, List.nodup_cons]
    rw [List.nodup_cons] at hn
    refine ⟨?_, ih (fun x hx y hy => hips x (List.mem_cons_of_mem _ hx) y (List.mem_cons_of_mem _ hy)) hn.2⟩
    intro hm
    obtain ⟨x, hx, he⟩ := List.mem_map.mp hm
    have : x = r := hips x (List.mem_cons_of_mem _ hx) r List.mem_cons_self (by rw [Prod.mk.injEq] at he; exact he.1)
    rw [this] at hx
    exact hn.1 hx

theorem gcLines_tell (clock : Nat → Int) : ∀ (n : Nat) (c : Ctrl) (k : Nat), c.nodes.length = n → (nodeNames c).Nodup →
    tell (gcLines c clock k) (nodeNames c) = nodeNames (c.gcFrom clock k) := by
  intro n
  induction n using Nat.strongRecOn with
  | ind n ih =>
    intro c k hn hd
    unfold gcLines Ctrl.gcFrom
    split
    · rename_i h
      split
      · rfl
      · rename_i h'
        rw [h] at h'
        cases h'
    · rename_i i k' h
      have hlt := gcFind_lt c.heap clock c.nodes _ i (by rw [h])
      have hl : i < (nodeNames c).length := by unfold nodeNames; rw [List.length_map]; exact hlt
      have he : Line.follow (nodeNames c) (.stale (c.heap c.nodes[i]).node.name (c.heap c.nodes[i]).node.ip) =
          (nodeNames c).eraseIdx i := by
        refine List.erase_eq_eraseIdx_of_idxOf ?_
        have := hd.idxOf_getElem i hl
        simpa [nodeNames] using this
      have hm := map_eraseIdx (fun r => ((c.heap r).node.ip, (c.heap r).node.name)) c.nodes i
      have := ih (c.nodes.eraseIdx i).length (by rw [List.length_eraseIdx, if_pos hlt]; omega)
        { c with
          output := delAll c.output (c.heap c.nodes[i]).node.outputs
          input := delAll c.input (c.heap c.nodes[i]).node.inputs
          nodes := c.nodes.eraseIdx i } k' rfl
        (by
          show ((c.nodes.eraseIdx i).map _).Nodup
          rw [hm]
          exact (List.eraseIdx_sublist ..).nodup hd)
      split
      · rename_i h'
        rw [h] at h'
        cases h'
      rename_i i' k'' h'
      rw [h] at h'
      cases h'
      dsimp only
      rw [← this]
      unfold tell
      rw [List.foldl_cons, he]
      congr 1
      exact hm.symm

theorem replyLines_tell {c : Ctrl} (h : Inv c) (p : ArtPollReply) (now : Int) (hi : ignored p = false) :
    tell (replyLines c p) (nodeNames c) = nodeNames (c.pollReply p now) := by
  have ht : c.pollReply p now = c.updateNode (configFromArtPollReply p) now := by
    unfold ignored at hi
    unfold Ctrl.pollReply
    simp only [decide_eq_false_iff_not, not_or] at hi
    rw [if_neg hi.1, if_neg hi.2]
  rw [ht, updateNode_eq]
  unfold replyLines
  rw [if_neg (by rw [hi]; nofun)]
  generalize configFromArtPollReply p = cfg
  show tell (match known c cfg.ip with | some _ => [.updated cfg.name cfg.ip] | none => [.added cfg.name cfg.ip]) _ = _
  cases hk : known c cfg.ip with
  | some r =>
    obtain ⟨hr, hip⟩ := known_some hk
    show List.map _ (List.map _ _) = List.map _ _
    rw [List.map_map]
    refine List.map_congr_left fun x hx => ?_
    simp only [Function.comp, updatedAt]
    by_cases hxr : x = r
    · subst hxr
      rw [if_pos hip, if_pos rfl]
    · rw [if_neg, if_neg hxr]
      intro e
      exact hxr (h.ips x hx r hr (e.trans hip.symm))
  | none =>
    show List.map _ _ ++ [_] = List.map _ (_ ++ [_])
    rw [List.map_append]
    congr 1
    · refine List.map_congr_left fun x hx => ?_
      have : x ≠ c.next := Nat.ne_of_lt (h.lt_next x hx)
      simp only [addedNode, if_neg this]
    · simp [addedNode]

theorem nodeNames_congr {c d : Ctrl} (h : d.nodes = c.nodes) (hh : ∀ r, (d.heap r).node = (c.heap r).node) :
    nodeNames d = nodeNames c := by
  unfold nodeNames
  rw [h]
  exact List.map_congr_left fun r _ => by rw [hh]

theorem nodeNames_tickAt (c : Ctrl) (a : Address) (r : Ref) (now : Int) :
    nodeNames (c.tickAt a r now).1 = nodeNames c := by
  have hw := withBuffer_fields (c.heap r) a
  rw [tickAt_eq]
  split
  all_goals
    refine nodeNames_congr rfl fun x => ?_
    dsimp only
    by_cases hx : x = r
    · subst hx
      rw [store_heap_same]
      first
      | exact hw.2.1
      | (unfold sent; exact hw.2.1)
    · rw [store_heap_ne _ _ hx]

/-- Entries that are not about nodes. -/
theorem tell_id {l : List Line} (h : ∀ x ∈ l, ∀ t, x.follow t = t) (t : List (Bytes × Bytes)) : tell l t = t := by
  induction l generalizing t with
  | nil => rfl
  | cons x l ih =>
    unfold tell
    rw [List.foldl_cons, h x List.mem_cons_self]
    exact ih (fun y hy => h y (List.mem_cons_of_mem _ hy)) t

theorem step_tell {P : Params} {s s' : Sys} {i : Nat} {t : Thread} {c : Choice} (hi : s.lock = false → Inv s.ctrl)
    (h : s.step P i t c = some s') : tell (s.stepLines P t c) (nodeNames s.ctrl) = nodeNames s'.ctrl := by
  have triv : ∀ (s1 : Sys) (l : List Line), s1.ctrl = s.ctrl → l = [] → tell l (nodeNames s.ctrl) = nodeNames s1.ctrl := by
    intro s1 l h1 hl
    subst hl
    rw [h1]
    rfl
  have one : ∀ (s1 : Sys) (l : List Line), s1.ctrl = s.ctrl → (∀ x ∈ l, ∀ t, x.follow t = t) →
      tell l (nodeNames s.ctrl) = nodeNames s1.ctrl := by
    intro s1 l h1 hl
    rw [tell_id hl, h1]
  have comm : ∀ {g : Nat} {f : Chans → Option Chans} {s1 : Sys} (_ : s.comm g f = some s1), s1.ctrl = s.ctrl := by
    intro g f s1 h
    obtain ⟨ch, ch', hg, hfc, rfl⟩ := comm_eq h
    rfl
  unfold Sys.step at h
  split at h
  all_goals
    try (obtain ⟨g, hg, rfl⟩ := Option.map_eq_some_iff.mp h)
    first
    | exact triv _ _ rfl rfl
    | (have hc := comm hg; refine triv _ _ ?_ rfl; exact hc)
    | (try dsimp only at h
       repeat' split at h
       all_goals first
       | (cases h; done)
       | (cases h; exact triv _ _ rfl rfl)
       | (cases h; skip)
       | skip)
  -- the other entries, on the same state
  all_goals try
    refine one _ _ rfl ?_
    intro x hx
    simp only [Sys.stepLines] at hx
    repeat' split at hx
    all_goals first
    | (cases hx; done)
    | (cases List.mem_singleton.mp hx; exact fun _ => rfl)
    | contradiction
  · exact gcLines_tell _ _ _ _ rfl (nodeNames_nodup (hi (by simpa using ‹¬ s.lock = true›)))
  · rename_i p now hp
    refine triv _ _ rfl ?_
    simp only [Sys.stepLines, replyLines, hp, if_true]
  · rename_i p now hp hl
    exact replyLines_tell (hi (by simpa using hl)) p now (by simpa using hp)
  · show tell (tickLines _ _ _ _) _ = nodeNames (Ctrl.tickAt _ _ _ _).1
    rw [tickLines_nil, nodeNames_tickAt]
    rfl
  · rename_i dmx a hl
    obtain ⟨_, f2, _, _, _, f6, _, _⟩ := sendDMX_frame s.ctrl dmx a
    show tell (sendLines s.ctrl dmx a) _ = nodeNames (s.ctrl.sendDMX dmx a)
    rw [nodeNames_congr f2 (fun r => (f6 r).2.1), tell_id]
    intro x hx
    unfold sendLines at hx
    repeat' split at hx
    all_goals first
    | (cases hx; done)
    | (cases List.mem_singleton.mp hx; exact fun _ => rfl)

theorem exec_tell {P : Params} {s s' : Sys} {a : Act} (hr : Reach P s) (h : s.exec P a = some s') :
    tell (s.lines P a) (nodeNames s.ctrl) = nodeNames s'.ctrl := by
  have hi : s.lock = false → Inv s.ctrl := inv_of_free hr
  have triv : ∀ s1 : Sys, s1.ctrl.nodes = s.ctrl.nodes → s1.ctrl.heap = s.ctrl.heap → (∀ i c, a ≠ .run i c) →
      tell (s.lines P a) (nodeNames s.ctrl) = nodeNames s1.ctrl := by
    intro s1 h1 h2 hn
    rw [nodeNames_congr h1 (fun r => by rw [h2]), tell_id]
    intro x hx
    cases a with
    | run i c => exact absurd rfl (hn i c)
    | _ =>
      simp only [Sys.lines] at hx
      repeat' split at hx
      all_goals first
      | (cases hx; done)
      | (cases List.mem_singleton.mp hx; exact fun _ => rfl)
  unfold Sys.exec at h
  split at h
  · cases h
  · cases a with
    | run i c =>
      dsimp only at h
      cases ht : s.threads[i]? with
      | none => rw [ht] at h; cases h
      | some t =>
        rw [ht] at h
        have := step_tell hi h
        simpa only [Sys.lines, ht] using this
    | _ =>
      dsimp only at h
      repeat' split at h
      all_goals first
      | (cases h; done)
      | (cases h; exact triv _ rfl rfl nofun)

theorem log_tell {P : Params} {s s' : Sys} {as : List Act} (hr : Reach P s) (h : s.execs P as = some s') :
    tell (s.log P as) (nodeNames s.ctrl) = nodeNames s'.ctrl := by
  induction as generalizing s with
  | nil =>
    cases h
    rfl
  | cons a as ih =>
    unfold Sys.execs at h
    split at h
    · cases h
    · rename_i s1 h1
      unfold Sys.log
      rw [h1]
      have := ih (Reach.exec hr h1) h
      rw [← exec_tell hr h1] at this
      rw [← this]
      exact List.foldl_append ..

end Verif.Conc
