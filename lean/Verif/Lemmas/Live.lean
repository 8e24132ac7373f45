import Verif.Model.Live
import Verif.Lemmas.ConcPoll
import Verif.Lemmas.Controller
/-
Steps of the model in which the fields may change.
-/
namespace Verif.Artnet
open Packet Code

theorem gcFrom_maxFPS (c : Ctrl) (clock : Nat → Int) (k : Nat) : (c.gcFrom clock k).maxFPS = c.maxFPS := by
  induction c, k using Ctrl.gcFrom.induct clock with
  | case1 c k k' h => rw [Ctrl.gcFrom]; split <;> simp_all
  | case2 c k i k' h r ih =>
    rw [Ctrl.gcFrom]
    split
    · rfl
    · rename_i j k'' h'
      rw [h] at h'
      cases h'
      exact ih

theorem update_maxFPS (c : Ctrl) (r : Ref) (a : Address) (now : Int) : (c.update r a now).1.maxFPS = c.maxFPS := by
  unfold Ctrl.update
  split <;> rfl

theorem tickAt_maxFPS (c : Ctrl) (a : Address) (r : Ref) (now : Int) : (c.tickAt a r now).1.maxFPS = c.maxFPS := by
  have he : (c.ensureBuffer a r).maxFPS = c.maxFPS := by
    unfold Ctrl.ensureBuffer
    split <;> rfl
  unfold Ctrl.tickAt
  generalize c.ensureBuffer a r = d at *
  dsimp only
  by_cases h : (((d.heap r).dmxBuffer.get a).getD .zero).stale ∧ (((d.heap r).dmxBuffer.get a).getD .zero).lastUpdate < now - d.maxFPS
  · rw [if_pos h]
    have := update_maxFPS d r a now
    split
    · split
      · exact (update_maxFPS _ _ _ _).trans (this.trans he)
      · exact this.trans he
    · exact this.trans he
  · rw [if_neg h]
    dsimp only
    split
    · split
      · exact (update_maxFPS _ _ _ _).trans he
      · exact he
    · exact he

theorem pollReply_maxFPS (c : Ctrl) (p : ArtPollReply) (now : Int) : (c.pollReply p now).maxFPS = c.maxFPS := by
  unfold Ctrl.pollReply Ctrl.updateNode
  dsimp only
  split
  · rfl
  · split
    · rfl
    · split <;> rfl

theorem sendDMX_maxFPS (c : Ctrl) (d : Arr 512) (a : Address) : (c.sendDMX d a).maxFPS = c.maxFPS := by
  unfold Ctrl.sendDMX
  split <;> rfl

end Verif.Artnet

namespace Verif.Conc
open Packet Code Artnet

theorem exec_maxFPS {P : Params} {s s' : Sys} {a : Act} (h : s.exec P a = some s') : s'.ctrl.maxFPS = s.ctrl.maxFPS := by
  cases (exec_Step h).2 with
  | gc => exact gcFrom_maxFPS _ _ _
  | reply => exact pollReply_maxFPS _ _ _
  | tickAt => exact tickAt_maxFPS _ _ _ _
  | sendDMX => exact sendDMX_maxFPS _ _ _
  | startPanic | startFail | start =>
    simp only [Sys.reset, Sys.panic, Sys.makeChannels, Sys.resetTables]
    split <;> rfl
  | _ => rfl

theorem execWith_frame {Q : Params} {s s' : Sys} {a : Act} (h : s.execWith Q a = some s') :
    ∃ u, s.exec Q a = some u ∧ s'.threads = u.threads ∧ s'.chans = u.chans ∧ s'.emitted = u.emitted ∧
      s'.ctrl.maxFPS = if s.readsRate a then Q.maxFPS else s.ctrl.maxFPS := by
  obtain ⟨u, hu, rfl⟩ := Option.map_eq_some_iff.mp h
  refine ⟨u, hu, ?_⟩
  split
  · exact ⟨rfl, rfl, rfl, rfl⟩
  · exact ⟨rfl, rfl, rfl, exec_maxFPS hu⟩

theorem execsWith_append {s : Sys} {xs ys : List (Params × Act)} : s.execsWith (xs ++ ys) = (s.execsWith xs).bind (·.execsWith ys) := by
  induction xs generalizing s with
  | nil => rfl
  | cons x xs ih =>
    simp only [List.cons_append, Sys.execsWith]
    split
    · rfl
    · exact ih

/-- The datagram that pollReplyLoop replies with. -/
def Thread.me : Thread → Option Bytes
  | .prTop me | .prWait _ me | .prGot me | .prSend _ me => some me
  | _ => none

theorem me_step {P : Params} {s s' : Sys} {a : Act} (h : s.exec P a = some s') {t : Thread} {me : Bytes} (ht : t ∈ s'.threads)
    (hm : t.me = some me) :
    (∃ t0 ∈ s.threads, t0.me = some me) ∨
    ∃ i : Nat, s.threads[i]? = some .prInit ∧ s'.threads[i]? = some (.prTop me) ∧ P.me = .ok me := by
  have key : ∀ {i : Nat} {l : List Thread} {t0 t' : Thread}, l[i]? = some t0 → t ∈ l.set i t' → (t'.me = t0.me ∨ t'.me = none) →
      ∃ t0 ∈ l, t0.me = some me := by
    intro i l t0 t' hl hmem he
    rcases List.mem_or_eq_of_mem_set hmem with h | rfl
    · exact ⟨t, h, hm⟩
    · rcases he with he | he
      · exact ⟨t0, List.mem_of_getElem? hl, he ▸ hm⟩
      · rw [he] at hm; cases hm
  cases (exec_Step h).2 with
  | @move i t0 t' hi m =>
    cases m with
    | @prInit me' hp =>
      rcases List.mem_or_eq_of_mem_set ht with h | rfl
      · exact .inl ⟨t, h, hm⟩
      · cases hm
        refine .inr ⟨i, hi, ?_, hp⟩
        obtain ⟨hlt, _⟩ := List.getElem?_eq_some_iff.mp hi
        simp [Sys.goto, hlt]
    | prTop | prGot => exact .inl (key hi ht (.inl rfl))
    | _ => exact .inl (key hi ht (.inr rfl))
  | popPoll hi => exact .inl (key hi ht (.inl rfl))
  | pushSend hi k =>
    cases k with
    | pr => exact .inl (key hi ht (.inl rfl))
    | pl => exact .inl (key hi ht (.inr rfl))
  | popSend hi | popRecv hi | popReply hi | pushDmx hi | pushRecv hi | pushPoll hi | pushOwn hi | pushReply hi | write hi
  | reject hi | arrive hi | lose hi | accept hi | drop hi | gc hi | ignore hi | reply hi | lock hi | unlock hi | tickAt hi
  | sendDMX hi => exact .inl (key hi ht (.inr rfl))
  | call hi _ hc => cases hc <;> exact .inl (key hi ht (.inr rfl))
  | spawnReader hi | spawnHandler hi =>
    rcases List.mem_append.mp ht with h | h
    · exact .inl (key hi h (.inr rfl))
    · rw [List.mem_singleton.mp h] at hm; cases hm
  | startPanic | startFail | start =>
    simp only [Sys.reset, Sys.panic, Sys.makeChannels, Sys.resetTables] at ht
    split at ht <;> exact .inl ⟨t, ht, hm⟩
  | listen =>
    rcases List.mem_append.mp ht with h | h
    · exact .inl ⟨t, h, hm⟩
    · exact absurd hm (all_goroutines (Q := fun t => t.me ≠ some me) P nofun nofun nofun nofun nofun t h)
  | spawnCaller =>
    rcases List.mem_append.mp ht with h | h
    · exact .inl ⟨t, h, hm⟩
    · rw [List.mem_singleton.mp h] at hm; cases hm
  | panic | close | listenFail | stop | disconnect | disconnectC | ended | register | deregister | noRegister =>
    exact .inl ⟨t, ht, hm⟩

end Verif.Conc

namespace Verif.Conc
open Packet Code Artnet

/-- What has been put into sendCh of generation `g`. -/
def Sys.enqOf (s : Sys) (g : Nat) : List Payload := ((s.chans[g]?).map Chans.enq).getD []

theorem enqOf_set {s s' : Sys} {i : Nat} {ch ch' : Chans} (hi : s.chans[i]? = some ch) (hs : s'.chans = s.chans.set i ch') (g : Nat) :
    s'.enqOf g = if g = i then ch'.enq else s.enqOf g := by
  unfold Sys.enqOf
  rw [hs, List.getElem?_set]
  obtain ⟨hlt, _⟩ := List.getElem?_eq_some_iff.mp hi
  by_cases h : i = g
  · subst h
    simp [hlt]
  · rw [if_neg h, if_neg (fun e => h e.symm)]

/-- Why `p` is put into sendCh in the step from `s` to `s'`. -/
inductive Queues (Q : Params) (s s' : Sys) (p : Payload) : Prop
  | reply (t : Thread) (ht : t ∈ s.threads) (hm : t.me = some p.data) (ha : p.address = Q.broadcast)
  | poll (hp : p = ⟨Q.ctrlBroadcast, pollBytes⟩)
  | dmx (e : Emission) (he : s'.emitted = s.emitted ++ [e]) (hp : p = ⟨e.address, e.data⟩)

theorem queue_step {P : Params} {s s' : Sys} {a : Act} (h : s.exec P a = some s') (g : Nat) :
    s'.enqOf g = s.enqOf g ∨ ∃ p, s'.enqOf g = s.enqOf g ++ [p] ∧ Queues P s s' p := by
  have same : ∀ {i : Nat} {ch ch' : Chans}, s.chans[i]? = some ch → s'.chans = s.chans.set i ch' → ch'.enq = ch.enq →
      s'.enqOf g = s.enqOf g := by
    intro i ch ch' hi hs he
    rw [enqOf_set hi hs]
    split
    · rename_i hg
      subst hg
      rw [he, Sys.enqOf, hi]
      rfl
    · rfl
  have push : ∀ {i : Nat} {ch ch' : Chans} {p : Payload}, s.chans[i]? = some ch → s'.chans = s.chans.set i ch' →
      ch'.enq = ch.enq ++ [p] → Queues P s s' p →
      s'.enqOf g = s.enqOf g ∨ ∃ p, s'.enqOf g = s.enqOf g ++ [p] ∧ Queues P s s' p := by
    intro i ch ch' p hi hs he hq
    rw [enqOf_set hi hs]
    split
    · rename_i hg
      subst hg
      refine .inr ⟨p, ?_, hq⟩
      rw [he, Sys.enqOf, hi]
      rfl
    · exact .inl rfl
  cases (exec_Step h).2 with
  | popPoll ht hg hq | popRecv ht hg hq | popReply ht hg hq | popSend ht hg hq | pushRecv ht hg hl | pushPoll ht hg hl
  | pushOwn ht hg hl | pushReply ht hg hl => exact .inl (same hg rfl rfl)
  | close hc hcur hg hd => exact .inl (same hg rfl rfl)
  | pushSend ht hk hg hl =>
    refine push hg rfl rfl ?_
    cases hk with
    | pr => exact .reply _ (List.mem_of_getElem? ht) rfl rfl
    | pl => exact .poll rfl
  | pushDmx ht hg hl => exact push hg rfl rfl (.dmx _ rfl rfl)
  | startPanic | startFail =>
    refine .inl ?_
    simp only [Sys.reset, Sys.panic, Sys.resetTables, Sys.enqOf]
    split <;> rfl
  | start =>
    refine .inl ?_
    have : (s.reset P).makeChannels.chans = s.chans ++ [Chans.make] := by
      simp only [Sys.reset, Sys.makeChannels, Sys.resetTables]
      split <;> rfl
    unfold Sys.enqOf
    rw [this]
    rcases Nat.lt_trichotomy g s.chans.length with hl | hl | hl
    · rw [List.getElem?_append_left hl]
    · subst hl; simp [Chans.make]
    · rw [List.getElem?_eq_none (by simp; omega), List.getElem?_eq_none (by omega)]
  | _ => exact .inl rfl

end Verif.Conc
