import Verif.Spec.Say
import Verif.Props.Follow
import Verif.Props.Outcome
/-
One action and the entries it logs.
-/
namespace Verif.Conc
open Packet Code Artnet Spec Props

def size (p : Payload) : UDPAddr × Nat := (p.address, p.data.length)

/-- What an action adds to the record of the traffic is what it logs. -/
structure Logged (s s' : Sys) (l : List Line) : Prop where
  wire : s'.wire.map size = s.wire.map size ++ l.filterMap Line.sent?
  accepted : s'.accepted.map size = s.accepted.map size ++ l.filterMap Line.received?
  rejected : s'.rejected.map (fun p => (p.address.ip, p.data)) =
    s.rejected.map (fun p => (p.address.ip, p.data)) ++ l.filterMap Line.unparsed?
  dropped : s'.dropped = s.dropped ++ l.filterMap Line.unhandled?

/-- Entries that are not about traffic. -/
def Quiet (l : List Line) : Prop :=
  ∀ x ∈ l, x.sent? = none ∧ x.received? = none ∧ x.unparsed? = none ∧ x.unhandled? = none

theorem Logged.nothing {s s' : Sys} {l : List Line} (h1 : s'.wire = s.wire) (h2 : s'.accepted = s.accepted)
    (h3 : s'.rejected = s.rejected) (h4 : s'.dropped = s.dropped)
    (hl : Quiet l) : Logged s s' l := by
  refine ⟨?_, ?_, ?_, ?_⟩
  · rw [h1, List.filterMap_eq_nil_iff.mpr fun x hx => (hl x hx).1, List.append_nil]
  · rw [h2, List.filterMap_eq_nil_iff.mpr fun x hx => (hl x hx).2.1, List.append_nil]
  · rw [h3, List.filterMap_eq_nil_iff.mpr fun x hx => (hl x hx).2.2.1, List.append_nil]
  · rw [h4, List.filterMap_eq_nil_iff.mpr fun x hx => (hl x hx).2.2.2, List.append_nil]

theorem gcLines_stale (clock : Nat → Int) : ∀ (n : Nat) (c : Ctrl) (k : Nat), c.nodes.length = n →
    ∀ x ∈ gcLines c clock k, ∃ name ip, x = .stale name ip := by
  intro n
  induction n using Nat.strongRecOn with
  | ind n ih =>
    intro c k hn x hx
    unfold gcLines at hx
    split at hx
    · cases hx
    · rename_i i k' h
      have hlt := gcFind_lt c.heap clock c.nodes _ i (by rw [h])
      rcases List.mem_cons.mp hx with rfl | hx
      · exact ⟨_, _, rfl⟩
      · exact ih (c.nodes.eraseIdx i).length (by rw [List.length_eraseIdx, if_pos hlt]; omega) _ _ rfl x hx

theorem tickLines_nil (c : Ctrl) (a : Address) (r : Ref) (now : Int) : tickLines c a r now = [] := by
  have e1 : c.ensureBuffer a r = c.store r (withBuffer (c.heap r) a) := by
    unfold Ctrl.ensureBuffer withBuffer
    cases (c.heap r).dmxBuffer.get a with
    | none => rfl
    | some b => exact (store_self c r).symm
  have hg := withBuffer_get (c.heap r) a
  have hu := update_eq (c.store r (withBuffer (c.heap r) a)) r a now (bufferAt (c.heap r) a)
    (by rw [store_heap_same]; exact hg)
  have hv : ∀ c' : Ctrl, (∃ b, (c'.heap r).dmxBuffer.get a = some b) → (c'.update r a now).2.2 = true := by
    rintro c' ⟨b, hb⟩
    rw [update_eq c' r a now b hb]
  unfold tickLines
  rw [e1]
  simp only [hu]
  split
  · dsimp only
    rw [if_pos rfl]
    split
    · rw [if_pos (hv _ ⟨_, by rw [store_heap_same]; exact GoMap.get_set_same ..⟩)]
    · rfl
  · dsimp only
    rw [if_pos rfl]
    split
    · rw [if_pos (hv _ ⟨_, by rw [store_heap_same]; exact hg⟩)]
    · rfl

theorem rejected_error {b : Bytes} {r : Option AnyPacket × Option Err} (h : unmarshal b = .ok r)
    (hn : ∀ q, r ≠ (some q, none)) : ∃ q e, r = (q, some e) := by
  simp only [unmarshal, bind, Except.bind, pure, Except.pure] at h
  repeat' split at h
  all_goals first
  | (cases h; done)
  | (cases h; exact ⟨_, _, rfl⟩)
  | (cases h
     rename_i v hv
     obtain ⟨p, e⟩ := v
     cases e with
     | none => exact absurd rfl (hn _)
     | some e => exact ⟨_, _, rfl⟩)

theorem quiet_handler {P : Params} {s : Sys} {p : AnyPacket} {h : Handler}
    (hh : s.callbacks.get p.getOpCode = some h) : Quiet (s.stepLines P (.hStart p) .next) := by
  simp only [Sys.stepLines, hh]
  intro x hx
  cases h
  all_goals dsimp only at hx
  all_goals repeat' split at hx
  all_goals first
  | (cases hx; done)
  | (cases List.mem_singleton.mp hx; exact ⟨rfl, rfl, rfl, rfl⟩)

theorem quiet_reply (c : Ctrl) (p : ArtPollReply) : Quiet (replyLines c p) := by
  unfold replyLines
  intro x hx
  dsimp only at hx
  repeat' split at hx
  all_goals first
  | (cases hx; done)
  | (cases List.mem_singleton.mp hx; exact ⟨rfl, rfl, rfl, rfl⟩)

theorem quiet_send (c : Ctrl) (d : Arr 512) (a : Address) : Quiet (sendLines c d a) := by
  unfold sendLines
  intro x hx
  repeat' split at hx
  all_goals first
  | (cases hx; done)
  | (cases List.mem_singleton.mp hx; exact ⟨rfl, rfl, rfl, rfl⟩)

theorem step_told {P : Params} {s s' : Sys} {i : Nat} {t : Thread} {c : Choice} (h : s.step P i t c = some s') :
    Logged s s' (s.stepLines P t c) := by
  have triv : ∀ (s1 : Sys) (l : List Line), s1.wire = s.wire → s1.accepted = s.accepted → s1.rejected = s.rejected →
      s1.dropped = s.dropped → l = [] → Logged s s1 l := by
    intro s1 l h1 h2 h3 h4 hl
    subst hl
    exact .nothing h1 h2 h3 h4 (by nofun)
  have comm : ∀ {g : Nat} {f : Chans → Option Chans} {s1 : Sys} (_ : s.comm g f = some s1),
      s1.wire = s.wire ∧ s1.accepted = s.accepted ∧ s1.rejected = s.rejected ∧ s1.dropped = s.dropped := by
    intro g f s1 h
    obtain ⟨ch, ch', hg, hfc, rfl⟩ := comm_eq h
    exact ⟨rfl, rfl, rfl, rfl⟩
  unfold Sys.step at h
  split at h
  all_goals
    try (obtain ⟨g, hg, rfl⟩ := Option.map_eq_some_iff.mp h)
    first
    | exact triv _ _ rfl rfl rfl rfl rfl
    | exact triv _ _ (comm hg).1 (comm hg).2.1 (comm hg).2.2.1 (comm hg).2.2.2 rfl
    | (try dsimp only at h
       repeat' split at h
       all_goals first
       | (cases h; done)
       | (cases h; exact triv _ _ rfl rfl rfl rfl rfl)
       | (cases h; skip)
       | skip)
  · exact .nothing rfl rfl rfl rfl (by intro x hx; cases List.mem_singleton.mp hx; exact ⟨rfl, rfl, rfl, rfl⟩)
  · exact ⟨by simp [Sys.goto, Sys.stepLines, Line.sent?, size], by simp [Sys.goto, Sys.stepLines, Line.received?],
      by simp [Sys.goto, Sys.stepLines, Line.unparsed?], by simp [Sys.goto, Sys.stepLines, Line.unhandled?]⟩
  · exact .nothing rfl rfl rfl rfl (by intro x hx; cases List.mem_singleton.mp hx; exact ⟨rfl, rfl, rfl, rfl⟩)
  · rename_i hu
    exact triv _ _ rfl rfl rfl rfl (by simp only [Sys.stepLines, hu])
  · rename_i hu
    exact triv _ _ rfl rfl rfl rfl (by simp only [Sys.stepLines, hu])
  · rename_i p r hn hu
    obtain ⟨q, e, rfl⟩ := rejected_error hu hn
    exact ⟨by simp [Sys.goto, Sys.stepLines, hu, Line.sent?], by simp [Sys.goto, Sys.stepLines, hu, Line.received?],
      by simp [Sys.goto, Sys.stepLines, hu, Line.unparsed?], by simp [Sys.goto, Sys.stepLines, hu, Line.unhandled?]⟩
  · rename_i b res hs
    refine triv _ _ rfl rfl rfl rfl ?_
    cases res with
    | none => rfl
    | some x => simp only [Sys.stepLines, hs, if_true]
  · rename_i hs _ _ _ hip
    refine triv _ _ rfl rfl rfl rfl ?_
    simp only [Sys.stepLines, hip, if_true]
    split <;> rfl
  · rename_i hs _ n src hip
    have hl : ∀ b, Sys.stepLines P s (.rdCheck b (some (n, src))) .next = [.received src n] := by
      intro b
      simp only [Sys.stepLines]
      rw [if_neg hs, if_neg hip]
    rw [hl]
    exact ⟨by simp [Sys.goto, Line.sent?], by simp [Sys.goto, Line.received?, size, copyInto_length],
      by simp [Sys.goto, Line.unparsed?], by simp [Sys.goto, Line.unhandled?]⟩
  · rename_i hh
    exact ⟨by simp [Sys.goto, Sys.stepLines, hh, Line.sent?], by simp [Sys.goto, Sys.stepLines, hh, Line.received?],
      by simp [Sys.goto, Sys.stepLines, hh, Line.unparsed?], by simp [Sys.goto, Sys.stepLines, hh, Line.unhandled?]⟩
  · rename_i hh
    exact .nothing rfl rfl rfl rfl (quiet_handler hh)
  · rename_i hh
    exact .nothing rfl rfl rfl rfl (quiet_handler hh)
  · rename_i hh _
    exact .nothing rfl rfl rfl rfl (quiet_handler hh)
  · rename_i hh _
    exact .nothing rfl rfl rfl rfl (quiet_handler hh)
  · rename_i hh _ _ _ _
    exact .nothing rfl rfl rfl rfl (quiet_handler hh)
  · refine .nothing rfl rfl rfl rfl ?_
    intro x hx
    obtain ⟨n, ip, rfl⟩ := gcLines_stale _ _ _ _ rfl x hx
    exact ⟨rfl, rfl, rfl, rfl⟩
  · exact .nothing rfl rfl rfl rfl (quiet_reply _ _)
  · exact .nothing rfl rfl rfl rfl (quiet_reply _ _)
  · exact triv _ _ rfl rfl rfl rfl (tickLines_nil _ _ _ _)
  · exact .nothing rfl rfl rfl rfl (quiet_send _ _ _)

theorem exec_told {P : Params} {s s' : Sys} {a : Act} (h : s.exec P a = some s') : Logged s s' (s.lines P a) := by
  have triv : ∀ (s1 : Sys) (l : List Line), s1.wire = s.wire → s1.accepted = s.accepted → s1.rejected = s.rejected →
      s1.dropped = s.dropped → Quiet l → Logged s s1 l := fun _ _ h1 h2 h3 h4 hl => .nothing h1 h2 h3 h4 hl
  have hq : (∀ i c, a ≠ .run i c) → Quiet (s.lines P a) := by
    intro hn x hx
    cases a with
    | run i c => exact absurd rfl (hn i c)
    | _ =>
      simp only [Sys.lines] at hx
      repeat' split at hx
      all_goals first
      | (cases hx; done)
      | (cases List.mem_singleton.mp hx; exact ⟨rfl, rfl, rfl, rfl⟩)
  unfold Sys.exec at h
  split at h
  · cases h
  · cases a with
    | run i c =>
      dsimp only at h
      cases ht : s.threads[i]? with
      | none => rw [ht] at h; cases h
      | some t =>
        rw [ht] at h
        have := step_told h
        simpa only [Sys.lines, ht] using this
    | start =>
      dsimp only at h
      repeat' split at h
      all_goals first
      | (cases h; done)
      | (cases h; exact triv _ _ rfl rfl rfl rfl (hq nofun))
    | _ =>
      dsimp only at h
      repeat' split at h
      all_goals first
      | (cases h; done)
      | (cases h; exact triv _ _ rfl rfl rfl rfl (hq nofun))

theorem Logged.trans {s s1 s2 : Sys} {l l' : List Line} (h : Logged s s1 l) (h' : Logged s1 s2 l') : Logged s s2 (l ++ l') := by
  refine ⟨?_, ?_, ?_, ?_⟩
  · rw [h'.wire, h.wire, List.filterMap_append, List.append_assoc]
  · rw [h'.accepted, h.accepted, List.filterMap_append, List.append_assoc]
  · rw [h'.rejected, h.rejected, List.filterMap_append, List.append_assoc]
  · rw [h'.dropped, h.dropped, List.filterMap_append, List.append_assoc]

theorem log_told {P : Params} {s s' : Sys} {as : List Act} (h : s.execs P as = some s') : Logged s s' (s.log P as) := by
  induction as generalizing s with
  | nil =>
    cases h
    exact .nothing rfl rfl rfl rfl (by nofun)
  | cons a as ih =>
    unfold Sys.execs at h
    split at h
    · cases h
    · rename_i s1 h1
      unfold Sys.log
      rw [h1]
      exact (exec_told h1).trans (ih h)

end Verif.Conc
