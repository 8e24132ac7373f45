import Verif.Lemmas.ConcChan
import Verif.Lemmas.ConcFrame
/-
Where the operations on the controller come from: replies from call-backs, data from callers.
-/
namespace Verif.Conc
open Packet Code Artnet

/-- A poll reply on its way from the call-back to the controller. -/
def Thread.reporting : Thread → Option ArtPollReply
  | .hReplyTop p | .hReply _ p | .plGot p => some p
  | _ => none

/-- Every reply that is on its way to the controller, or has been handled by it, was handed to the built-in
call-back. -/
theorem replies_called {P : Params} {s : Sys} (h : Reach P s) :
    (∀ t ∈ s.threads, ∀ p, t.reporting = some p → (Handler.pollReply, AnyPacket.pollReply p) ∈ s.calls) ∧
    (∀ c ∈ s.chans, ∀ p ∈ c.pollReply, (Handler.pollReply, AnyPacket.pollReply p) ∈ s.calls) ∧
    (∀ p now, Op.reply p now ∈ s.hist → (Handler.pollReply, AnyPacket.pollReply p) ∈ s.calls) := by
  refine Reach.induct (P := P) (I := fun s =>
    (∀ t ∈ s.threads, ∀ p, t.reporting = some p → (Handler.pollReply, AnyPacket.pollReply p) ∈ s.calls) ∧
    (∀ c ∈ s.chans, ∀ p ∈ c.pollReply, (Handler.pollReply, AnyPacket.pollReply p) ∈ s.calls) ∧
    (∀ p now, Op.reply p now ∈ s.hist → (Handler.pollReply, AnyPacket.pollReply p) ∈ s.calls)) ?_ ?_ h
  · exact ⟨nofun, nofun, nofun⟩
  intro s s' _ ih _ hst
  cases hst with
  | move ht m =>
    have hb := ih.1 _ (List.mem_of_getElem? ht)
    refine ⟨all_set ih.1 ?_, ih.2⟩
    cases m <;> first | exact hb | exact nofun
  | spawnReader ht | spawnHandler ht => exact ⟨all_append (all_set ih.1 nofun) (all_one nofun), ih.2⟩
  | call ht hh hc =>
    have hm : ∀ {x}, x ∈ s.calls → ∀ y, x ∈ s.calls ++ [y] := fun hx y => List.mem_append_left _ hx
    refine ⟨all_set (fun t ht p hp => hm (ih.1 t ht p hp) _) ?_, fun c hc p hp => hm (ih.2.1 c hc p hp) _,
      fun p now hp => hm (ih.2.2 p now hp) _⟩
    cases hc with
    | reply h =>
      intro p hp
      cases hp
      exact List.mem_append_right _ (List.mem_singleton.mpr rfl)
    | poll => nofun
    | other => nofun
  | write | reject | lose | drop | unlock | tickAt | arrive | accept =>
    exact ⟨all_set ih.1 nofun, ih.2⟩
  | gc | lock | sendDMX =>
    refine ⟨all_set ih.1 nofun, ih.2.1, ?_⟩
    intro p now hp
    rcases List.mem_append.mp hp with hp | hp
    · exact ih.2.2 p now hp
    · simp at hp
  | ignore ht | reply ht =>
    have hb := ih.1 _ (List.mem_of_getElem? ht)
    refine ⟨all_set ih.1 nofun, ih.2.1, ?_⟩
    intro p now hp
    rcases List.mem_append.mp hp with hp | hp
    · exact ih.2.2 p now hp
    · simp only [List.mem_singleton, Op.reply.injEq] at hp
      rw [hp.1]
      exact hb _ rfl
  | popPoll ht hg | popSend ht hg | popRecv ht hg | pushDmx ht hg | pushPoll ht hg | pushOwn ht hg
  | pushRecv ht hg =>
    have hb := ih.2.1 _ (List.mem_of_getElem? hg)
    exact ⟨all_set ih.1 nofun, all_set ih.2.1 hb, ih.2.2⟩
  | pushSend ht hk hg =>
    have hb := ih.2.1 _ (List.mem_of_getElem? hg)
    exact ⟨all_set ih.1 (by cases hk <;> nofun), all_set ih.2.1 hb, ih.2.2⟩
  | popReply ht hg hq =>
    have hb := ih.2.1 _ (List.mem_of_getElem? hg)
    rw [hq] at hb
    refine ⟨all_set ih.1 ?_, all_set ih.2.1 fun p hp => hb p (List.mem_cons_of_mem _ hp), ih.2.2⟩
    intro p hp
    cases hp
    exact hb _ List.mem_cons_self
  | pushReply ht hg =>
    have hb := ih.2.1 _ (List.mem_of_getElem? hg)
    have ht' := ih.1 _ (List.mem_of_getElem? ht)
    exact ⟨all_set ih.1 nofun, all_set ih.2.1 (all_append hb (all_one (ht' _ rfl))), ih.2.2⟩
  | close hc h hg hd =>
    have hb := ih.2.1 _ (List.mem_of_getElem? hg)
    exact ⟨ih.1, all_set ih.2.1 hb, ih.2.2⟩
  | startPanic | startFail =>
    simp only [Sys.reset, Sys.panic, Sys.resetTables]
    split
    · refine ⟨ih.1, ih.2.1, ?_⟩
      intro p now hp
      rcases List.mem_append.mp hp with hp | hp
      · exact ih.2.2 p now hp
      · simp at hp
    · exact ih
  | start =>
    simp only [Sys.reset, Sys.makeChannels, Sys.resetTables]
    split
    · refine ⟨ih.1, all_append ih.2.1 (all_one nofun), ?_⟩
      intro p now hp
      rcases List.mem_append.mp hp with hp | hp
      · exact ih.2.2 p now hp
      · simp at hp
    · exact ⟨ih.1, all_append ih.2.1 (all_one nofun), ih.2.2⟩
  | listen => exact ⟨all_append ih.1 (all_goroutines P nofun nofun nofun nofun nofun), ih.2⟩
  | spawnCaller => exact ⟨all_append ih.1 (all_one nofun), ih.2⟩
  | panic | listenFail | stop | disconnect | disconnectC | ended | register | deregister
  | noRegister => exact ih

/-- Induction over the actions of an execution. -/
theorem execs_induct {P : Params} {I : List Act → Sys → Prop} (h0 : I [] (Sys.init P))
    (hs : ∀ as s a s', Reach P s → I as s → s.exec P a = some s' → I (as ++ [a]) s') {as : List Act} {s : Sys}
    (h : (Sys.init P).execs P as = some s) : I as s := by
  suffices ∀ bs as0 s0, Reach P s0 → I as0 s0 → s0.execs P bs = some s → I (as0 ++ bs) s from
    this as [] _ (Reach.init P) h0 h
  intro bs
  induction bs with
  | nil => intro as0 s0 _ hi he; cases he; rw [List.append_nil]; exact hi
  | cons a bs ih =>
    intro as0 s0 hr hi he
    simp only [Sys.execs] at he
    split at he
    · cases he
    · rename_i s1 hx
      have := ih (as0 ++ [a]) s1 (hr.exec hx) (hs as0 s0 a s1 hr hi hx) he
      rw [List.append_assoc] at this
      exact this

/-- A goroutine step creates no caller, and records a call only when the caller gets the lock. -/
theorem step_callers {P : Params} {s s' : Sys} {i : Nat} {t : Thread} {c : Choice}
    (ht : s.threads[i]? = some t) (h : s.step P i t c = some s') :
    (∀ d a, Thread.caller d a ∈ s'.threads → Thread.caller d a ∈ s.threads) ∧
    (∀ d a, Op.send d a ∈ s'.hist → Op.send d a ∈ s.hist ∨ Thread.caller d a ∈ s.threads) := by
  have hmem : ∀ {l : List Thread} {t' : Thread}, (∀ d a, t' ≠ .caller d a) → ∀ d a,
      Thread.caller d a ∈ l.set i t' → Thread.caller d a ∈ l := by
    intro l t' hn d a hx
    rcases List.mem_or_eq_of_mem_set hx with hx | hx
    · exact hx
    · exact absurd hx.symm (hn d a)
  have hmem1 : ∀ {l : List Thread} {t' u : Thread}, (∀ d a, t' ≠ .caller d a) → (∀ d a, u ≠ .caller d a) → ∀ d a,
      Thread.caller d a ∈ l.set i t' ++ [u] → Thread.caller d a ∈ l := by
    intro l t' u hn hu d a hx
    rcases List.mem_append.mp hx with hx | hx
    · exact hmem hn d a hx
    · exact absurd (List.mem_singleton.mp hx).symm (hu d a)
  have comm : ∀ {g : Nat} {f : Chans → Option Chans} {s1 : Sys} (_ : s.comm g f = some s1),
      s1.threads = s.threads ∧ s1.hist = s.hist := by
    intro g f s1 h
    obtain ⟨ch, ch', hg, hfc, rfl⟩ := comm_eq h
    exact ⟨rfl, rfl⟩
  have hop : ∀ {o : Op}, (∀ d a, o ≠ .send d a) → ∀ d a, Op.send d a ∈ s.hist ++ [o] →
      Op.send d a ∈ s.hist ∨ Thread.caller d a ∈ s.threads := by
    intro o hn d a hx
    rcases List.mem_append.mp hx with hx | hx
    · exact .inl hx
    · exact absurd (List.mem_singleton.mp hx).symm (hn d a)
  unfold Sys.step at h
  split at h
  all_goals
    try (obtain ⟨g, hg, rfl⟩ := Option.map_eq_some_iff.mp h)
    first
    | exact ⟨hmem nofun, fun _ _ hx => .inl hx⟩
    | (obtain ⟨h1, h2⟩ := comm hg
       refine ⟨?_, fun _ _ hx => .inl (h2 ▸ hx)⟩
       show ∀ d a, Thread.caller d a ∈ (List.set _ _ _) → _
       rw [h1]
       exact hmem nofun)
    | (try dsimp only at h
       repeat' split at h
       all_goals first
       | (cases h; done)
       | (cases h; exact ⟨hmem nofun, fun _ _ hx => .inl hx⟩)
       | (cases h; exact ⟨fun _ _ hx => hx, fun _ _ hx => .inl hx⟩)
       | (cases h; exact ⟨hmem1 nofun nofun, fun _ _ hx => .inl hx⟩)
       | (cases h
          refine ⟨hmem nofun, ?_⟩
          intro d a hx
          rcases List.mem_append.mp hx with hx | hx
          · exact .inl hx
          · right
            rw [List.mem_singleton.mp hx |> Op.send.inj |>.1, List.mem_singleton.mp hx |> Op.send.inj |>.2]
            exact List.mem_of_getElem? ht)
       | (cases h; exact ⟨hmem nofun, hop (by intro _ _ hx; cases hx)⟩))

/-- Every SendDMXToAddress that has taken effect or is waiting for the lock was called. -/
theorem sends_called {P : Params} {as : List Act} {s : Sys} (h : (Sys.init P).execs P as = some s) :
    (∀ d a, Thread.caller d a ∈ s.threads → Act.call d a ∈ as) ∧
    (∀ d a, Op.send d a ∈ s.hist → Act.call d a ∈ as) := by
  refine execs_induct (P := P) (I := fun as s => (∀ d a, Thread.caller d a ∈ s.threads → Act.call d a ∈ as) ∧
    (∀ d a, Op.send d a ∈ s.hist → Act.call d a ∈ as)) ⟨nofun, nofun⟩ ?_ h
  intro as s b s' _ ih he
  have hm : ∀ d a, Act.call d a ∈ as → Act.call d a ∈ as ++ [b] := fun d a hx => List.mem_append_left _ hx
  have ih : (∀ d a, Thread.caller d a ∈ s.threads → Act.call d a ∈ as ++ [b]) ∧
    (∀ d a, Op.send d a ∈ s.hist → Act.call d a ∈ as ++ [b]) :=
    ⟨fun d a hx => hm d a (ih.1 d a hx), fun d a hx => hm d a (ih.2 d a hx)⟩
  have hreset : ∀ d a, Op.send d a ∈ s.hist ++ [Op.restart] → Act.call d a ∈ as ++ [b] := by
    intro d a hx
    rcases List.mem_append.mp hx with hx | hx
    · exact ih.2 d a hx
    · simp at hx
  unfold Sys.exec at he
  split at he
  · cases he
  cases b with
  | run i c =>
    dsimp only at he
    split at he
    · cases he
    · rename_i t ht
      obtain ⟨h1, h2⟩ := step_callers ht he
      exact ⟨fun d a hx => ih.1 d a (h1 d a hx), fun d a hx => (h2 d a hx).elim (ih.2 d a) (ih.1 d a)⟩
  | call d x =>
    dsimp only at he
    split at he
    · cases he
      refine ⟨?_, ih.2⟩
      intro d' a' hx
      rcases List.mem_append.mp hx with hx | hx
      · exact ih.1 d' a' hx
      · cases List.mem_singleton.mp hx
        exact List.mem_append_right _ (List.mem_singleton.mpr rfl)
    · cases he
  | listen ok =>
    dsimp only at he
    split at he
    · cases he
    · split at he
      · cases he
        refine ⟨?_, ih.2⟩
        intro d a hx
        rcases List.mem_append.mp hx with hx | hx
        · exact ih.1 d a hx
        · simp only [Params.goroutines] at hx
          split at hx <;> simp at hx
      · cases he; exact ih
  | start =>
    dsimp only at he
    repeat' split at he
    all_goals first
      | (cases he; done)
      | (cases he; exact ⟨ih.1, ih.2⟩)
      | (cases he; exact ⟨ih.1, hreset⟩)
  | stop | stopStep | register | deregister =>
    dsimp only at he
    repeat' split at he
    all_goals first
      | (cases he; done)
      | (cases he; exact ⟨ih.1, ih.2⟩)

end Verif.Conc
