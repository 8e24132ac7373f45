import Verif.Lemmas.ConcWire
import Verif.Lemmas.ConcPoll
import Verif.Lemmas.Provenance
import Verif.Spec.Order
/-
The order of ArtDMX datagrams, from the tables of the controller to the wire.
-/
namespace Verif.Artnet
open Spec Packet Code

/-- One operation changes the data of a universe of a node only if it is a call of SendDMXToAddress for that
universe. -/
theorem buffer_step {c : Ctrl} (hi : Inv c) {o : Op} (ho : c.CanDo o) (r : Ref) (a : Address) :
    (bufferAt ((c.step o).1.heap r) a).data = (bufferAt (c.heap r) a).data ∨
    ∃ d, o = .send d a ∧ (bufferAt ((c.step o).1.heap r) a).data = d := by
  cases o with
  | reply p now =>
    left
    show (bufferAt ((c.pollReply p now).heap r) a).data = _
    rw [pollReply_eq]
    split
    · rcases updateNode_cases c (configFromArtPollReply p) now with ⟨x, hk, e⟩ | ⟨hk, e⟩
      · rw [e]
        by_cases hxr : r = x
        · subst hxr; simp [updatedAt, bufferAt]
        · simp [updatedAt, bufferAt, hxr]
      · rw [e]
        by_cases hxr : r = c.next
        · subst hxr
          rw [hi.fresh _ (Nat.le_refl _)]
          have : ((addedNode c (configFromArtPollReply p) now).heap c.next).dmxBuffer =
              newBuffers (configFromArtPollReply p).outputs := by simp [addedNode]
          rw [bufferAt, this, newBuffers_get]
          split <;> rfl
        · simp [addedNode, bufferAt, hxr]
    · rfl
  | gc clock =>
    left
    obtain ⟨h1, _⟩ := (gcNode_spec c clock hi.nodup).1
    show (bufferAt ((c.gcNode clock).heap r) a).data = _
    rw [h1]
  | send d x =>
    obtain ⟨_, _, _, _, _, _, _, f8⟩ := sendDMX_frame c d x
    show (bufferAt ((c.sendDMX d x).heap r) a).data = _ ∨ ∃ d', _ ∧ (bufferAt ((c.sendDMX d x).heap r) a).data = d'
    simp only [bufferAt]
    rw [f8]
    split
    · rename_i hc
      obtain ⟨_, rfl⟩ := hc
      cases hg : (c.heap r).dmxBuffer.get a with
      | none => exact .inl rfl
      | some b => exact .inr ⟨d, rfl, rfl⟩
    · exact .inl rfl
  | tick order now =>
    left
    have t := tick_spec hi (now := now) ho
    rw [bufferAt, t.buffer]
    split
    · show (ticked (bufferAt (c.heap r) a) now c.maxFPS).data = _
      unfold ticked; split <;> rfl
    · rfl
  | restart => exact .inl rfl

/-- What has been sent for a universe of a node follows the order of the calls; the data that will be sent next is not
older. -/
theorem run_follows (m : Int) (os : List Op) (h : (Ctrl.init m).CanRun os) (r : Ref) (a : Address) :
    ∃ (k : Nat) (kes : List (Nat × Emission)), Source os k a (bufferAt (((Ctrl.init m).run os).1.heap r) a).data.val ∧
      kes.map (·.2) = ((Ctrl.init m).run os).2.filter (fun e => e.ref = r ∧ emAddress e = a) ∧
      (kes.map (·.1)).Pairwise (· ≤ ·) ∧ (∀ x ∈ kes, x.1 ≤ k) ∧ ∀ x ∈ kes, Source os x.1 a (emChannels x.2) := by
  induction hn : os.length generalizing os with
  | zero =>
    cases os with
    | cons _ _ => simp at hn
    | nil => exact ⟨0, [], rfl, rfl, .nil, nofun, nofun⟩
  | succ n ih =>
    obtain ⟨os, o, rfl⟩ : ∃ l o, os = l ++ [o] :=
      ⟨os.dropLast, os.getLast (by intro h; simp [h] at hn), (List.dropLast_concat_getLast _).symm⟩
    rw [canRun_append] at h
    have hi := (inv_init m).run os h.1
    obtain ⟨k, kes, h1, h2, h3, h4, h5⟩ := ih os h.1 (by simpa using hn)
    have hmono : ∀ k x, Source os k a x → Source (os ++ [o]) k a x := fun k x hs => Source.mono hs
    have hrun : (Ctrl.init m).run (os ++ [o]) = ((((Ctrl.init m).run os).1.step o).1,
        ((Ctrl.init m).run os).2 ++ (((Ctrl.init m).run os).1.step o).2) := by
      obtain ⟨e1, e2⟩ := run_append (Ctrl.init m) os [o]
      exact Prod.ext e1 (e2.trans (congrArg _ (List.append_nil _)))
    rw [hrun]
    -- what this operation sends carries the data from before
    have hnew : ∀ e ∈ (((Ctrl.init m).run os).1.step o).2.filter (fun e => e.ref = r ∧ emAddress e = a),
        emChannels e = (bufferAt (((Ctrl.init m).run os).1.heap r) a).data.val := by
      intro e he
      obtain ⟨he', hra⟩ := List.mem_filter.mp he
      clear he
      obtain ⟨rfl, rfl⟩ := of_decide_eq_true hra
      have he := he'
      clear he'
      cases o with
      | tick order now => exact ((tick_spec hi (now := now) h.2.1).each e he).2.2.2
      | reply p now => cases he
      | gc clock => cases he
      | send d x => cases he
      | restart => cases he
    have hk' : ∃ k', k ≤ k' ∧
        Source (os ++ [o]) k' a (bufferAt ((((Ctrl.init m).run os).1.step o).1.heap r) a).data.val := by
      rcases buffer_step hi h.2.1 r a with e | ⟨d, rfl, e⟩
      · rw [e]; exact ⟨k, Nat.le_refl _, hmono _ _ h1⟩
      · rw [e]
        refine ⟨os.length + 1, Nat.le_succ_of_le h1.le, d, ?_, rfl⟩
        simp
    obtain ⟨k', hk1, hk2⟩ := hk'
    refine ⟨k', kes ++ ((((Ctrl.init m).run os).1.step o).2.filter
      (fun e => e.ref = r ∧ emAddress e = a)).map (fun e => (k, e)), hk2, ?_, ?_, ?_, ?_⟩
    · rw [List.map_append, h2, List.filter_append, List.map_map]
      congr 1
      exact List.map_id _
    · rw [List.map_append, List.map_map]
      refine List.pairwise_append.mpr ⟨h3, ?_, ?_⟩
      · refine List.pairwise_map.mpr (List.Pairwise.imp (R := fun _ _ => True) ?_ ?_)
        · intro _ _ _; exact Nat.le_refl _
        · exact List.pairwise_of_forall (fun _ _ => trivial)
      · intro x hx y hy
        obtain ⟨z, hz, rfl⟩ := List.mem_map.mp hx
        obtain ⟨w, _, rfl⟩ := List.mem_map.mp hy
        exact h4 z hz
    · intro x hx
      rcases List.mem_append.mp hx with hx | hx
      · exact Nat.le_trans (h4 x hx) hk1
      · obtain ⟨e, _, rfl⟩ := List.mem_map.mp hx
        exact hk1
    · intro x hx
      rcases List.mem_append.mp hx with hx | hx
      · exact hmono _ _ (h5 x hx)
      · obtain ⟨e, he, rfl⟩ := List.mem_map.mp hx
        show Source _ k a (emChannels e)
        rw [hnew e he]
        exact hmono _ _ h1

end Verif.Artnet

namespace Verif.Conc
open Packet Code Artnet Spec

theorem enq_set {l : List Chans} {g : Nat} {ch ch' : Chans} (h : l[g]? = some ch) (ht : ch'.enq = ch.enq) :
    (l.set g ch').flatMap Chans.enq = l.flatMap Chans.enq := by
  induction l generalizing g with
  | nil => rfl
  | cons a l ih =>
    cases g with
    | zero => simp at h; subst h; simp [ht]
    | succ g => simp only [List.set_cons_succ, List.flatMap_cons]; rw [ih (by simpa using h)]

theorem enq_last {l : List Chans} {g : Nat} {ch ch' : Chans} {p : Payload} (h : l[g]? = some ch)
    (hg : g + 1 = l.length) (ht : ch'.enq = ch.enq ++ [p]) :
    (l.set g ch').flatMap Chans.enq = l.flatMap Chans.enq ++ [p] := by
  induction l generalizing g with
  | nil => cases h
  | cons a l ih =>
    cases g with
    | zero =>
      simp at h hg
      subst h
      have : l = [] := by simpa using hg.symm
      subst this
      simp [ht]
    | succ g =>
      simp only [List.set_cons_succ, List.flatMap_cons]
      rw [ih (by simpa using h) (by simpa using hg), List.append_assoc]

theorem image_not_dmx (u : UDPAddr) (p : ArtPollReply) : isDmx ⟨u, pollReplyImage p⟩ = false := by
  have : byteAt (pollReplyImage p) 9 = 0x21 := by
    unfold pollReplyImage; simp only [List.append_assoc]; rfl
  simp only [isDmx, this]
  simp

/-- The ArtDMX datagrams were put into the queues in the order in which the update loop emitted them. -/
theorem dmx_order {P : Params} {s : Sys} (h : TidyReach P s) :
    (s.chans.flatMap Chans.enq).filter isDmx = (s.emitted.map toPayload).filter isDmx := by
  refine TidyReach.induct (P := P) (I := fun s =>
    (s.chans.flatMap Chans.enq).filter isDmx = (s.emitted.map toPayload).filter isDmx) rfl ?_ h
  intro s s' hr ih _ hst _
  cases hst with
  | popPoll ht hg | popRecv ht hg | popReply ht hg | popSend ht hg | pushRecv ht hg | pushPoll ht hg
  | pushOwn ht hg | pushReply ht hg =>
    simp only [Sys.goto, Sys.setCh]
    rw [enq_set hg (by rfl)]
    exact ih
  | pushSend ht hk hg =>
    simp only [Sys.goto, Sys.setCh]
    have hb := threads_ok hr.reach _ (List.mem_of_getElem? ht)
    have htop := latest hr _ (List.mem_of_getElem? ht)
    cases hk with
    | pr =>
      rw [enq_last hg htop (by rfl), List.filter_append, ih]
      have h1 := hb.1
      rw [me_eq] at h1
      rw [← Except.ok.inj h1]
      simp [image_not_dmx]
    | pl =>
      rw [enq_last hg htop (by rfl), List.filter_append, ih]
      have : isDmx ⟨P.ctrlBroadcast, pollBytes⟩ = false := by
        show (byteAt pollBytes 8 == 0x00 && byteAt pollBytes 9 == 0x50) = false
        decide +kernel
      simp [this]
  | pushDmx ht hg =>
    simp only [Sys.goto, Sys.setCh]
    have htop := latest hr _ (List.mem_of_getElem? ht)
    rw [enq_last hg htop (by rfl), List.filter_append, ih, List.map_append, List.filter_append]
    rfl
  | close hc h hg =>
    simp only [Sys.setCh]
    rw [enq_set hg (by rfl)]
    exact ih
  | startPanic | startFail =>
    simp only [Sys.reset, Sys.panic, Sys.resetTables]
    split <;> exact ih
  | start =>
    simp only [Sys.reset, Sys.makeChannels, Sys.resetTables]
    split <;> (rw [List.flatMap_append]; simpa [Chans.make] using ih)
  | _ => exact ih

end Verif.Conc
