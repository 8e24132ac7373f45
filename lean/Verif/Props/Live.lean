import Verif.Lemmas.Live
import Verif.Props.Send
/-
C138: when changes of Node.Config, of the broadcast addresses and of the frame rate take effect.
-/
namespace Verif.Props
open Artnet Packet Code Spec Conc

/-- C138 as stated: the reply that pollReplyLoop puts into the queue shows Node.Config as it is at that moment. -/
def C138_statement : Prop := ∀ (P : Params) (xs : List (Params × Act)) (s s' : Sys) (Q : Params) (i g : Nat) (me : Bytes),
  (Sys.init P).execsWith xs = some s → s.threads[i]? = some (.prSend g me) → s.execWith Q (.run i .next) = some s' →
  me = pollReplyImage (announced Q.config)

/-- In the run `xs` from `u` some pollReplyLoop did its first statement, at a moment when `me` was the announcement of Node.Config. -/
def Begun (u : Sys) (xs : List (Params × Act)) (me : Bytes) : Prop :=
  ∃ pre Q a post v w, ∃ i : Nat, xs = pre ++ (Q, a) :: post ∧ u.execsWith pre = some v ∧ v.execWith Q a = some w ∧
    v.threads[i]? = some .prInit ∧ w.threads[i]? = some (.prTop me) ∧ me = pollReplyImage (announced Q.config)

theorem me_run {u s : Sys} {xs : List (Params × Act)} (h : u.execsWith xs = some s) {t : Thread} {me : Bytes} (ht : t ∈ s.threads)
    (hm : t.me = some me) : (∃ t0 ∈ u.threads, t0.me = some me) ∨ Begun u xs me := by
  induction xs generalizing u with
  | nil => cases h; exact .inl ⟨t, ht, hm⟩
  | cons x xs ih =>
    obtain ⟨Q, a⟩ := x
    simp only [Sys.execsWith] at h
    split at h
    · cases h
    · rename_i v hv
      rcases ih h with ⟨t0, h0, hm0⟩ | ⟨pre, Q', a', post, v', w, i, e, h1, h2⟩
      · obtain ⟨w, hw, hth, _⟩ := execWith_frame hv
        rw [hth] at h0
        rcases me_step hw h0 hm0 with h | ⟨i, h1, h2, h3⟩
        · exact .inl h
        · refine .inr ⟨[], Q, a, xs, u, v, i, rfl, rfl, hv, h1, by rw [hth]; exact h2, ?_⟩
          exact (Except.ok.inj ((me_eq Q).symm.trans h3)).symm
      · refine .inr ⟨(Q, a) :: pre, Q', a', post, v', w, i, by rw [e]; rfl, ?_, h2⟩
        simp only [Sys.execsWith, hv]
        exact h1

/-- C138, what holds: everything that enters the queue is either a reply, to the broadcast address of the Node as it is at that moment,
with Node.Config as it was when some pollReplyLoop did its first statement; or an ArtPoll, to the broadcast address of the Controller as it is
at that moment; or light. Missing: changes of Node.Config are not announced before the next Start. -/
theorem C138_partial {P Q : Params} {xs : List (Params × Act)} {s s' : Sys} {a : Act} {g : Nat} {p : Payload}
    (h : (Sys.init P).execsWith xs = some s) (hs : s.execWith Q a = some s') (hq : s'.enqOf g = s.enqOf g ++ [p]) :
    (p.address = Q.broadcast ∧ Begun (Sys.init P) xs p.data) ∨ p = ⟨Q.ctrlBroadcast, pollBytes⟩ ∨
    ∃ e, s'.emitted = s.emitted ++ [e] ∧ p = ⟨e.address, e.data⟩ := by
  obtain ⟨u, hu, _, hc, he, _⟩ := execWith_frame hs
  have hg : s'.enqOf g = u.enqOf g := by unfold Sys.enqOf; rw [hc]
  rcases queue_step hu g with hx | ⟨p', hx, hp⟩
  · rw [← hg, hq] at hx
    have := congrArg List.length hx
    simp at this
  · rw [← hg, hq] at hx
    have := List.append_cancel_left hx
    cases this
    cases hp with
    | reply t ht hm ha =>
      refine .inl ⟨ha, ?_⟩
      rcases me_run h ht hm with ⟨t0, h0, _⟩ | hb
      · cases h0
      · exact hb
    | poll hp => exact .inr (.inl hp)
    | dmx e h1 h2 => exact .inr (.inr ⟨e, by rw [he, h1], h2⟩)

/-- One datagram at most enters the queue in a step. -/
theorem C138_one {Q : Params} {s s' : Sys} {a : Act} (hs : s.execWith Q a = some s') (g : Nat) :
    s'.enqOf g = s.enqOf g ∨ ∃ p, s'.enqOf g = s.enqOf g ++ [p] := by
  obtain ⟨u, hu, _, hc, _, _⟩ := execWith_frame hs
  have hg : s'.enqOf g = u.enqOf g := by unfold Sys.enqOf; rw [hc]
  rw [hg]
  rcases queue_step hu g with hx | ⟨p', hx, -⟩
  · exact .inl hx
  · exact .inr ⟨p', hx⟩

/-- After a moment at which no pollReplyLoop is under way (as when Start is called on a node whose goroutines have ended), if Node.Config stays as
it is in `c`, all replies show it. -/
theorem C138_next {P : Params} {c : NodeConfig} {xs ys : List (Params × Act)} {u s : Sys} (_h : (Sys.init P).execsWith xs = some u)
    (hu : ∀ t ∈ u.threads, t.me = none) (hy : u.execsWith ys = some s) (hc : ∀ y ∈ ys, y.1.config = c) :
    ∀ t ∈ s.threads, ∀ me, t.me = some me → me = pollReplyImage (announced c) := by
  intro t ht me hm
  rcases me_run hy ht hm with ⟨t0, h0, hm0⟩ | ⟨pre, Q, a, post, v, w, i, e, _, _, _, _, hme⟩
  · rw [hu t0 h0] at hm0; cases hm0
  · rw [hme, ← hc (Q, a) (by rw [e]; exact List.mem_append_right _ List.mem_cons_self)]

/-- The rate by which the update loop limits what it sends changes only when an update loop does its first statement; SetOption(MaxFPS(n)) on a
running controller has no effect before the next Start. -/
theorem C138_rate {Q : Params} {s s' : Sys} {a : Act} (h : s.execWith Q a = some s') :
    (∀ i : Nat, a = .run i .next → s.threads[i]? = some .duInit → s'.ctrl.maxFPS = Q.maxFPS) ∧
    ((∀ i : Nat, a = .run i .next → s.threads[i]? ≠ some .duInit) → s'.ctrl.maxFPS = s.ctrl.maxFPS) := by
  obtain ⟨_, _, _, _, _, hr⟩ := execWith_frame h
  rw [hr]
  constructor
  · rintro i rfl hi
    rw [if_pos (by simp only [Sys.readsRate, hi]; decide)]
  · intro hn
    rw [if_neg]
    unfold Sys.readsRate
    split
    · simpa using hn _ rfl
    · nofun

theorem refines_from (P : Params) (as : List Act) (s : Sys) (hs : s.ctrl.maxFPS = P.maxFPS) :
    s.execsWith (as.map fun a => (P, a)) = s.execs P as := by
  induction as generalizing s with
  | nil => rfl
  | cons a as ih =>
    have : s.execWith P a = s.exec P a := by
      unfold Sys.execWith
      cases h : s.exec P a with
      | none => rfl
      | some u =>
        have hu : u.ctrl.maxFPS = P.maxFPS := (exec_maxFPS h).trans hs
        rw [Option.map_some]
        split
        · rw [← hu]
        · rfl
    simp only [List.map_cons, Sys.execsWith, Sys.execs, this]
    cases h : s.exec P a with
    | none => rfl
    | some u => exact ih u ((exec_maxFPS h).trans hs)

/-- While nothing changes the model is that of Model/Conc.lean. -/
theorem C138_refines (P : Params) (as : List Act) : (Sys.init P).execsWith (as.map fun a => (P, a)) = (Sys.init P).execs P as :=
  refines_from P as _ rfl

/-- The node is started, Node.Config gets another name, and the node answers a poll. -/
def renamed : Params := { sampleNode with config := { sampleNode.config with name := [0x6d] } }

def sampleRenamed : List (Params × Act) := (sampleStart.map fun a => (sampleNode, a)) ++
  ((sampleRead 3 ⟨[2, 0, 0, 2], 6454⟩ samplePoll ++
    ([.run 4 .next, .run 4 .next, .run 4 .next, .run 0 .next, .run 0 .next, .run 0 .next] : List Act)).map fun a => (renamed, a))

theorem renamed_state : ((Sys.init sampleNode).execsWith sampleRenamed).any (fun s =>
    s.threads[0]?.any (fun t => t.me.any fun me => (me.drop 26).take 1 == [0x6e] && t == .prSend 0 me) &&
      (s.execWith renamed (.run 0 .next)).isSome) = true := by decide +kernel

/-- The reply shows the old name. -/
theorem C138_false : ¬ C138_statement := by
  intro h
  have h1 := renamed_state
  simp only [Option.any_eq_true, Bool.and_eq_true, beq_iff_eq, Option.isSome_iff_exists] at h1
  obtain ⟨s, hs, ⟨t, ht, me, hm, hb, rfl⟩, s', hs'⟩ := h1
  have := h _ _ _ _ _ _ _ _ hs ht hs'
  rw [this] at hb
  revert hb
  decide +kernel

/-- After Stop and Start it shows the new one. -/
example : ((Sys.init sampleNode).execsWith (sampleRenamed ++ [(renamed, .stop), (renamed, .stopStep), (renamed, .stopStep), (renamed, .run 0 .next),
      (renamed, .run 0 .next), (renamed, .run 0 .down)])).any (fun u => u.threads.all (fun t => t.me == none) &&
    (u.execsWith [(renamed, .start), (renamed, .listen true), (renamed, .run 5 .next)]).any fun s =>
      s.threads[5]?.any fun t => t.me.any fun me => (me.drop 26).take 1 == [0x6d]) = true := by decide +kernel

/-! ### C139 -/

theorem panic_of (Q Q' : Params) (hm : Q'.maxFPS = Q.maxFPS) (hc : Q'.controller = Q.controller) {s s' : Sys} {a : Act} {f : Fault}
    (h : s.exec Q a = some s') (hf : s'.crashed = some f) : ∃ s'', s.exec Q' a = some s'' ∧ s''.crashed = some f := by
  have hn := (exec_Step h).1
  have hn' : ¬ s.crashed.isSome = true := by rw [hn]; nofun
  have no : ∀ {u : Sys}, u.crashed = s.crashed → some u = some s' → False := by
    intro u hu e
    cases e
    rw [hu, hn] at hf
    cases hf
  unfold Sys.exec at h ⊢
  rw [if_neg hn'] at h ⊢
  cases a with
  | start =>
    exfalso
    dsimp only at h
    split at h
    · cases h
    · obtain ⟨o, ho, _⟩ := validate_spec Q.config
      rw [ho] at h
      cases hq : Q.controller with
      | true => rw [hq] at h; cases o <;> (refine no ?_ h; rfl)
      | false => rw [hq] at h; cases o <;> (refine no ?_ h; rfl)
  | listen ok =>
    exfalso
    dsimp only at h
    split at h
    · cases h
    · split at h <;> (refine no ?_ h; rfl)
  | stop =>
    dsimp only at h ⊢
    rw [hc]
    split at h
    · cases h
    · rename_i hx
      rw [if_neg hx]
      split at h
      · rename_i hy
        rw [if_pos hy]
        exact ⟨_, h, hf⟩
      · exfalso; refine no ?_ h; rfl
  | stopStep =>
    dsimp only at h ⊢
    rw [hc]
    exact ⟨_, h, hf⟩
  | register o hd =>
    exfalso
    dsimp only at h
    split at h
    · cases h
    · split at h <;> (refine no ?_ h; rfl)
  | deregister o =>
    exfalso
    dsimp only at h
    split at h
    · cases h
    · split at h <;> (refine no ?_ h; rfl)
  | call d x =>
    exfalso
    dsimp only at h
    split at h
    · refine no ?_ h; rfl
    · cases h
  | run i c =>
    dsimp only at h ⊢
    cases ht : s.threads[i]? with
    | none => rw [ht] at h; cases h
    | some t =>
      rw [ht] at h
      rcases step_crash hn h hf with ⟨_, he⟩ | ⟨p, _, he⟩ | ⟨b, rfl, rfl, hs, rfl⟩ | ⟨rfl, rfl, he⟩ | ⟨p, rfl, rfl, hg, rfl⟩
      · rw [me_eq] at he; cases he
      · obtain ⟨r, hr⟩ := unmarshal_total p.data
        rw [hr] at he; cases he
      · exact ⟨s.panic .nilDereference, by simp only [Sys.step, hs]; rfl, rfl⟩
      · refine ⟨s.panic f, ?_, rfl⟩
        simp only [Sys.step, hm, he]
      · exact ⟨s.panic .nilDereference, by simp only [Sys.step, hg], rfl⟩

/-- C139: whether and how an action panics does not depend on Node.Config or on the addresses, however they have changed before. -/
theorem C139_no_panic (s : Sys) (Q Q' : Params) (hm : Q'.maxFPS = Q.maxFPS) (hc : Q'.controller = Q.controller) (a : Act) (f : Fault) :
    (∃ s', s.execWith Q' a = some s' ∧ s'.crashed = some f) ↔ ∃ s', s.execWith Q a = some s' ∧ s'.crashed = some f := by
  have plain : ∀ R : Params, (∃ s', s.execWith R a = some s' ∧ s'.crashed = some f) ↔ ∃ s', s.exec R a = some s' ∧ s'.crashed = some f := by
    intro R
    unfold Sys.execWith
    cases s.exec R a with
    | none => simp
    | some u =>
      rw [Option.map_some]
      split <;> simp
  rw [plain, plain]
  constructor
  · rintro ⟨s', h1, h2⟩
    exact panic_of Q' Q hm.symm hc.symm h1 h2
  · rintro ⟨s', h1, h2⟩
    exact panic_of Q Q' hm hc h1 h2

/-- There are panics to speak of: a second Stop. -/
example : ((Sys.init sampleNode).execsWith (sampleRenamed ++ [(renamed, .stop), (renamed, .stopStep), (renamed, .stopStep), (renamed, .stop)])).any
    (fun s => (s.execWith renamed .stopStep).any fun u => u.crashed == some .closeOfClosedChannel) = true := by decide +kernel

end Verif.Props
