import Verif.Props.Send
import Verif.Props.Controller
import Verif.Lemmas.ConcFrame
import Verif.Props.Decode
import Verif.Props.Config
/-
Properties of the life cycle of a Node and a Controller, over all executions: C57, C58, C59, C65, C68.
-/
namespace Verif.Props
open Spec Packet Code Artnet Conc

/-! ### C57 -/

/-- What a user of RegisterCallback has to keep track of. -/
structure Registry where
  running : Bool
  callback : OpCode → Option Handler

/-- The registry after an action. A Start with an invalid configuration changes nothing. With `strict`, a
Start that fails because the address is in use leaves the node stopped. -/
def Registry.act (P : Params) (strict : Bool) (r : Registry) : Act → Registry
  | .start => match P.config.validate with
    | .ok none => { r with running := true }
    | _ => r
  | .listen false => if strict then { r with running := false } else r
  | .stop => { r with running := false }
  | .register o h => if r.running then r else { r with callback := fun x => if x = o then some h else r.callback x }
  | .deregister o => if r.running then r else { r with callback := fun x => if x = o then none else r.callback x }
  | _ => r

/-- The registry of a new node. -/
def Registry.new : Registry :=
  ⟨false, fun o => if o = OpCode.opPoll then some .poll else
    if o = OpCode.opPollReply then some .pollReply else none⟩

/-- C57 as stated: a call of RegisterCallback or DeregisterCallback has an effect exactly if the node is not
running at the time, the effect is on its opcode only, and the last one wins. -/
def C57_statement : Prop := ∀ (P : Params) (as : List Act) (s : Sys), (Sys.init P).execs P as = some s →
  ∀ o, s.callbacks.get o = (as.foldl (Registry.act P true) Registry.new).callback o

/-- The callbacks and the running flag of the state are those of the registry. -/
def Agrees (s : Sys) (r : Registry) : Prop :=
  (∀ o, s.callbacks.get o = r.callback o) ∧ (s.crashed = none → s.shutdown = !r.running)

theorem agrees_act {P : Params} {s s' : Sys} {a : Act} {r : Registry} (h : Agrees s r)
    (he : s.exec P a = some s') : Agrees s' (r.act P false a) := by
  have hcr := (exec_Step he).1
  have hsh := h.2 hcr
  unfold Sys.exec at he
  rw [hcr, if_neg (by simp)] at he
  cases a with
  | start =>
    dsimp only at he
    split at he
    · cases he
    · simp only [Registry.act]
      split at he
      · rename_i hv
        cases he
        rw [hv]
        refine ⟨?_, nofun⟩
        intro o; rw [← h.1 o]; simp only [Sys.panic, Sys.resetTables]; split <;> rfl
      · rename_i hv
        cases he
        rw [hv]
        refine ⟨?_, fun _ => ?_⟩
        · intro o; rw [← h.1 o]; simp only [Sys.resetTables]; split <;> rfl
        · rw [← hsh]; simp only [Sys.resetTables]; split <;> rfl
      · rename_i hv
        cases he
        rw [hv]
        refine ⟨?_, fun _ => rfl⟩
        intro o
        rw [show (_ : Registry).callback o = r.callback o from rfl, ← h.1 o]
        simp only [Sys.makeChannels, Sys.resetTables]; split <;> rfl
  | listen ok =>
    dsimp only at he
    split at he
    · cases he
    · split at he <;> cases he <;> cases ok <;> exact ⟨h.1, fun _ => hsh⟩
  | stop =>
    dsimp only at he
    split at he
    · cases he
    · split at he <;> cases he
      · exact ⟨h.1, nofun⟩
      · exact ⟨h.1, fun _ => rfl⟩
  | stopStep =>
    refine ⟨?_, ?_⟩
    · intro o
      rw [show (r.act P false .stopStep) = r from rfl, ← h.1 o]
      dsimp only at he
      repeat' split at he
      all_goals first | cases he; rfl | cases he
    · dsimp only at he
      rw [show (r.act P false .stopStep) = r from rfl]
      repeat' split at he
      all_goals first | (cases he; exact fun _ => hsh) | (cases he; exact nofun) | cases he
  | register o f =>
    dsimp only at he
    split at he
    · cases he
    · simp only [Registry.act]
      by_cases hr : r.running = true
      · rw [if_pos (by rw [hsh, hr]; rfl)] at he
        cases he
        rw [if_pos hr]
        exact h
      · rw [if_neg (by rw [hsh]; simpa using hr)] at he
        cases he
        rw [if_neg hr]
        refine ⟨?_, fun _ => hsh⟩
        intro x
        show (s.callbacks.set o f).get x = if x = o then some f else r.callback x
        rw [GoMap.get_set, h.1 x]
  | deregister o =>
    dsimp only at he
    split at he
    · cases he
    · simp only [Registry.act]
      by_cases hr : r.running = true
      · rw [if_pos (by rw [hsh, hr]; rfl)] at he
        cases he
        rw [if_pos hr]
        exact h
      · rw [if_neg (by rw [hsh]; simpa using hr)] at he
        cases he
        rw [if_neg hr]
        refine ⟨?_, fun _ => hsh⟩
        intro x
        show (s.callbacks.del o).get x = if x = o then none else r.callback x
        rw [GoMap.get_del, h.1 x]
  | call d x =>
    dsimp only at he
    split at he
    · cases he; exact ⟨h.1, fun _ => hsh⟩
    · cases he
  | run i c =>
    dsimp only at he
    split at he
    · cases he
    · rename_i t ht
      have hf := step_frame he
      exact ⟨by rw [hf.callbacks]; exact h.1, fun _ => by rw [hf.shutdown]; exact hsh⟩

theorem agrees_execs {P : Params} {s s' : Sys} {as : List Act} {r : Registry} (h : Agrees s r)
    (he : s.execs P as = some s') : Agrees s' (as.foldl (Registry.act P false) r) := by
  induction as generalizing s r with
  | nil => cases he; exact h
  | cons a as ih =>
    simp only [Sys.execs] at he
    split at he
    · cases he
    · rename_i s1 h1
      exact ih (agrees_act h h1) he

/-- C57, the part that holds: it is as stated if a Start that passed validation counts as running until the
next Stop, even if it could not listen and returned an error; in particular it is as stated for executions
in which listening never fails. Missing: after a Start that could not listen, which has started nothing,
registrations are ignored. -/
theorem C57_partial (P : Params) (as : List Act) (s : Sys) (h : (Sys.init P).execs P as = some s) :
    (∀ o, s.callbacks.get o = (as.foldl (Registry.act P false) Registry.new).callback o) ∧
    ((∀ a ∈ as, a ≠ .listen false) →
      ∀ o, s.callbacks.get o = (as.foldl (Registry.act P true) Registry.new).callback o) := by
  have h0 : Agrees (Sys.init P) Registry.new := by
    refine ⟨?_, fun _ => rfl⟩
    intro o
    show GoMap.get [(OpCode.opPoll, Handler.poll), (OpCode.opPollReply, Handler.pollReply)] o = _
    simp only [GoMap.get, Registry.new]
    by_cases h1 : OpCode.opPoll = o
    · subst h1; rfl
    · by_cases h2 : OpCode.opPollReply = o
      · subst h2; rfl
      · simp [h1, h2, Ne.symm h1, Ne.symm h2]
  have h1 := (agrees_execs h0 h).1
  refine ⟨h1, fun hn o => ?_⟩
  rw [h1 o]
  have heq : ∀ (l : List Act) (r : Registry), (∀ a ∈ l, a ≠ .listen false) →
      l.foldl (Registry.act P false) r = l.foldl (Registry.act P true) r := by
    intro l
    induction l with
    | nil => intro r _; rfl
    | cons a l ih =>
      intro r hl
      have ha : r.act P false a = r.act P true a := by
        cases a with
        | listen ok =>
          cases ok with
          | true => rfl
          | false => exact absurd rfl (hl _ List.mem_cons_self)
        | _ => rfl
      rw [List.foldl_cons, List.foldl_cons, ha, ih _ fun a h => hl a (List.mem_cons_of_mem _ h)]
  rw [heq as _ hn]

/-- A node that could not listen ignores the registration. -/
theorem C57_false : ¬ C57_statement := by
  intro h
  have h1 : after sampleNode [.start, .listen false, .register OpCode.opDMX (.user 7)]
      (fun s => s.callbacks.get OpCode.opDMX == none) = true := by decide +kernel
  obtain ⟨s, _, he, hs⟩ := after_reach h1
  have := h _ _ s he OpCode.opDMX
  rw [beq_iff_eq.mp hs] at this
  exact absurd this.symm (by decide +kernel)

/-- Registering before Start works, registering after it does not. -/
example : after sampleNode [.register OpCode.opDMX (.user 7), .start, .listen true,
      .register OpCode.opDMX (.user 8), .deregister OpCode.opPoll]
    (fun s => s.callbacks.get OpCode.opDMX == some (.user 7) &&
      s.callbacks.get OpCode.opPoll == some .poll) = true := by decide +kernel

/-! ### C58 -/

/-- C58 as stated: no step of Stop panics. -/
def C58_statement : Prop := ∀ (P : Params) (s s' : Sys) (a : Act), Reach P s → a = .stop ∨ a = .stopStep →
  s.exec P a = some s' → s'.crashed = none

/-- Stop on a new node closes a nil channel. -/
theorem C58_false : ¬ C58_statement := by
  intro h
  have h1 : after sampleNode [.stop] (fun s => (s.exec sampleNode .stopStep).any
    fun s' => s'.crashed == some .closeOfNilChannel) = true := by decide +kernel
  obtain ⟨s, hr, _, hs⟩ := after_reach h1
  simp only [Option.any_eq_true] at hs
  obtain ⟨s', he, hs⟩ := hs
  have := h _ s s' _ hr (.inr rfl) he
  rw [this] at hs
  cases hs

/-- Stopping twice closes a closed channel. -/
example : after sampleNode [.start, .listen true, .stop, .stopStep, .stopStep, .stop, .stopStep]
    (fun s => s.crashed == some .closeOfClosedChannel) = true := by decide +kernel

/-- Stop on a controller that has not been started uses nil tickers, also after a Start that could not
listen. -/
example : after sampleController [.stop] (fun s => s.crashed == some .nilDereference) = true ∧
    after sampleController [.start, .listen false, .stop] (fun s => s.crashed == some .nilDereference) = true := by
  decide +kernel

/-- Steps of goroutines, calls of SendDMXToAddress and steps of the Stop call in progress. -/
def Act.internal : Act → Bool
  | .run _ _ | .call _ _ | .stopStep => true
  | _ => false

/-- What Stop still needs. -/
def StopOK (P : Params) (s : Sys) : Prop :=
  let open' := ∃ g, s.cur = some g ∧ (s.chans.map Chans.down)[g]? = some false
  let copen := P.controller = true → ∃ k, s.ccur = some k ∧ s.cdown[k]? = some false
  s.control = .idle ∨ (s.control = .closing ∧ open' ∧ copen) ∨ (s.control = .disconnecting ∧ copen) ∨
    (s.control = .ending ∧ P.controller = true ∧ copen)

theorem stopOK_internal {P : Params} {s s' : Sys} {a : Act} (h : StopOK P s) (ha : Act.internal a = true)
    (he : s.exec P a = some s') : StopOK P s' ∧ (a = .stopStep → s'.crashed = none) := by
  have hcr := (exec_Step he).1
  unfold Sys.exec at he
  rw [hcr, if_neg (by simp)] at he
  cases a with
  | start | listen | stop | register | deregister => cases ha
  | call d x =>
    dsimp only at he
    split at he
    · cases he; exact ⟨h, nofun⟩
    · cases he
  | run i c =>
    dsimp only at he
    split at he
    · cases he
    · have hf := step_frame he
      refine ⟨?_, nofun⟩
      unfold StopOK at h ⊢
      rw [hf.cur, hf.down, hf.ccur, hf.cdown, hf.control]
      exact h
  | stopStep =>
    rcases h with h | ⟨h, ⟨g, hg, hd⟩, hc⟩ | ⟨h, hc⟩ | ⟨h, hp, hc⟩
    · simp only [h] at he; cases he
    · rw [List.getElem?_map, Option.map_eq_some_iff] at hd
      obtain ⟨ch, hch, hd⟩ := hd
      simp only [h, hg, hch, hd] at he
      cases he
      exact ⟨.inr (.inr (.inl ⟨rfl, hc⟩)), fun _ => rfl⟩
    · simp only [h] at he
      split at he
      · cases he
        exact ⟨.inr (.inr (.inr ⟨rfl, by assumption, hc⟩)), fun _ => rfl⟩
      · cases he
        exact ⟨.inl rfl, fun _ => rfl⟩
    · obtain ⟨k, hk, hd⟩ := hc hp
      simp only [h, hk, hd] at he
      cases he
      exact ⟨.inl rfl, fun _ => rfl⟩

theorem stopOK_execs {P : Params} {s s' : Sys} {as : List Act} (h : StopOK P s)
    (ha : ∀ a ∈ as, Act.internal a = true) (he : s.execs P as = some s') : StopOK P s' := by
  induction as generalizing s with
  | nil => cases he; exact h
  | cons a as ih =>
    simp only [Sys.execs] at he
    split at he
    · cases he
    · rename_i s1 h1
      exact ih (stopOK_internal h (ha a List.mem_cons_self) h1).1
        (fun b hb => ha b (List.mem_cons_of_mem _ hb)) he

theorem stopOK_step {P : Params} {s : Sys} (h : StopOK P s) (hc : s.control ≠ .idle) (hcr : s.crashed = none) :
    ∃ s', s.exec P .stopStep = some s' := by
  unfold Sys.exec
  rw [hcr, if_neg (by simp)]
  rcases h with h | ⟨h, ⟨g, hg, hd⟩, hc⟩ | ⟨h, hc⟩ | ⟨h, hp, hc⟩
  · exact absurd h hc
  · rw [List.getElem?_map, Option.map_eq_some_iff] at hd
    obtain ⟨ch, hch, hd⟩ := hd
    simp only [h, hg, hch, hd]
    exact ⟨_, rfl⟩
  · simp only [h]
    split <;> exact ⟨_, rfl⟩
  · obtain ⟨k, hk, hd⟩ := hc hp
    simp only [h, hk, hd]
    exact ⟨_, rfl⟩

/-- C58, the part that holds: Stop called while the node is started (for a controller: and a Start has been
able to listen) does not panic and is never blocked, whatever the goroutines do meanwhile. Missing: Stop on
a new node, Stop after Stop, Stop on a controller that never listened. -/
theorem C58_partial {P : Params} {s : Sys} (h : Reach P s) (hp : s.phase = .started) (hc : s.control = .idle)
    (ht : P.controller = true → s.conns ≠ []) (hcr : s.crashed = none) :
    (∃ s1, s.exec P .stop = some s1 ∧ s1.crashed = none) ∧
    (∀ as s', (∀ a ∈ as, Act.internal a = true) → s.execs P (.stop :: as) = some s' → s'.crashed = none →
      (s'.control ≠ .idle → ∃ s'', s'.exec P .stopStep = some s'') ∧
      ∀ s'', s'.exec P .stopStep = some s'' → s''.crashed = none) := by
  have hl := life h
  have hstop : s.exec P .stop = some { s with shutdown := true, control := .closing, phase := .stopping } := by
    unfold Sys.exec
    rw [hcr, if_neg (by simp)]
    simp only [hc, ne_eq, not_true_eq_false, if_false]
    rw [if_neg]
    simp only [Bool.and_eq_true, Bool.not_eq_true', not_and, Bool.not_eq_false]
    exact fun hP => hl.wired hP (ht hP)
  refine ⟨⟨_, hstop, hcr⟩, ?_⟩
  intro as s' ha he hcr'
  simp only [Sys.execs, hstop] at he
  have h0 : StopOK P { s with shutdown := true, control := .closing, phase := .stopping } := by
    obtain ⟨ch, hlast, hd⟩ := hl.started hp
    have hne : s.chans ≠ [] := by intro h; rw [h] at hlast; cases hlast
    have hcur : ∃ g, s.cur = some g := by
      cases hg : s.cur with
      | none => exact absurd (lastIdx_none.mp (hl.cur.symm.trans hg)) hne
      | some g => exact ⟨g, rfl⟩
    obtain ⟨g, hg⟩ := hcur
    refine .inr (.inl ⟨rfl, ⟨g, hg, ?_⟩, ?_⟩)
    · rw [List.getElem?_map, lastIdx_get (hl.cur.symm.trans hg), hlast]
      exact congrArg some hd
    · intro hP
      have hcl := hl.copen hP ch hlast hd
      have hne : s.cdown ≠ [] := by intro h; rw [h] at hcl; cases hcl
      cases hk : s.ccur with
      | none => exact absurd (lastIdx_none.mp (hl.ccur.symm.trans hk)) hne
      | some k => exact ⟨k, rfl, by rw [← hcl]; exact lastIdx_get (hl.ccur.symm.trans hk)⟩
  have h1 := stopOK_execs h0 ha he
  refine ⟨fun hn => stopOK_step h1 hn hcr', ?_⟩
  intro s'' he'
  exact (stopOK_internal h1 rfl he').2 rfl

example : after sampleController [.start, .listen true, .stop, .stopStep, .stopStep, .stopStep]
    (fun s => s.crashed == none && s.phase == .stopped && s.control == .idle) = true := by decide +kernel

/-! ### C59 -/

/-- C59: Start with an invalid configuration reports failure; a Node is otherwise unchanged, and of a
Controller no field of its Node. -/
theorem C59_start_invalid {P : Params} {s : Sys} (hc : s.control = .idle) (hcr : s.crashed = none)
    {e : ConfigErr} (hv : P.config.validate = .ok (some e)) :
    ∃ s', s.exec P .start = some s' ∧ s'.results = s.results ++ [false] ∧
      (P.controller = false → s' = { s with results := s.results ++ [false] }) ∧
      s'.callbacks = s.callbacks ∧ s'.shutdown = s.shutdown ∧ s'.chans = s.chans ∧ s'.cur = s.cur ∧
      s'.conns = s.conns ∧ s'.conn = s.conn ∧ s'.threads = s.threads ∧ s'.tickers = s.tickers ∧
      s'.phase = s.phase ∧ s'.control = .idle ∧ s'.crashed = none := by
  unfold Sys.exec
  rw [hcr, if_neg (by simp)]
  simp only [hc, ne_eq, not_true_eq_false, if_false, hv]
  cases hP : P.controller with
  | false =>
    refine ⟨_, rfl, rfl, fun _ => ?_, rfl, rfl, rfl, rfl, rfl, rfl, rfl, rfl, rfl, hc, hcr⟩
    simp only [Bool.false_eq_true, if_false, hcr, hc]
  | true => exact ⟨_, rfl, rfl, nofun, rfl, rfl, rfl, rfl, rfl, rfl, rfl, rfl, rfl, hc, hcr⟩

/-- An invalid configuration: five input ports. -/
def badNode : Params := { sampleNode with
  config := { sampleNode.config with inputPorts := List.replicate 5 ⟨⟨0, 0⟩, 0, 0⟩ } }

example : badNode.config.validate = .ok (some (.tooManyInputs 5)) := rfl

example : after badNode [.start] (fun s => s.results == [false] && s.chans.isEmpty && s.shutdown) = true := by
  decide +kernel

/-! ### C65 -/

/-- No connection in use is open, and none is about to be opened. -/
def Unplugged (s : Sys) : Prop :=
  (∀ k, s.conn = some k → s.conns[k]? = some false) ∧ s.control ≠ .listening

/-- C65: after Stop has returned, and until the next Start, nothing is written to the network. -/
theorem C65_silent {P : Params} {s s' : Sys} {as : List Act} (h : Reach P s) (hp : s.phase = .stopped)
    (ha : ∀ a ∈ as, a ≠ .start) (he : s.execs P as = some s') : s'.wire = s.wire := by
  have hl := life h
  have h0 : Unplugged s := by
    refine ⟨hl.unplugged (.inr hp), ?_⟩
    intro hc
    have := hl.listening hc
    rw [hp] at this; cases this
  clear hl hp h
  induction as generalizing s with
  | nil => cases he; rfl
  | cons a as ih =>
    simp only [Sys.execs] at he
    split at he
    · cases he
    · rename_i s1 h1
      have key : Unplugged s1 ∧ s1.wire = s.wire := by
        cases a with
        | start => exact absurd rfl (ha _ List.mem_cons_self)
        | run i c =>
          have hst := (exec_Step h1).2
          have hfr : Frame s s1 := by
            unfold Sys.exec at h1
            split at h1
            · cases h1
            · dsimp only at h1
              split at h1
              · cases h1
              · exact step_frame h1
          refine ⟨?_, ?_⟩
          · unfold Unplugged; rw [hfr.conn, hfr.conns, hfr.control]; exact h0
          · cases hst with
            | write ht hk ho => rw [h0.1 _ hk] at ho; cases ho
            | startPanic | startFail | start =>
              simp only [Sys.reset, Sys.panic, Sys.makeChannels, Sys.resetTables]
              split <;> rfl
            | _ => rfl
        | listen ok =>
          unfold Sys.exec at h1
          split at h1
          · cases h1
          · dsimp only at h1
            rw [if_pos h0.2] at h1
            cases h1
        | stop | stopStep | register | deregister | call =>
          unfold Sys.exec at h1
          split at h1
          · cases h1
          · dsimp only at h1
            have hcl : ∀ k, s.conn = some k → s.closeConn[k]? = some false := by
              intro k hk
              have h2 := h0.1 k hk
              simp only [Sys.closeConn, hk]
              rw [List.getElem?_set_self (List.getElem?_eq_some_iff.mp h2).1]
            repeat' split at h1
            all_goals first
              | (cases h1; done)
              | (cases h1; exact ⟨⟨h0.1, h0.2⟩, rfl⟩)
              | (cases h1; exact ⟨⟨h0.1, nofun⟩, rfl⟩)
              | (cases h1; exact ⟨⟨hcl, nofun⟩, rfl⟩)
      rw [ih (fun b hb => ha b (List.mem_cons_of_mem _ hb)) he key.1, key.2]

/-- Stop while the reply to a poll is about to be written: the write fails. -/
example : after sampleNode (sampleStart ++ sampleRead 3 ⟨[2, 0, 0, 2], 6454⟩ samplePoll ++
      [.run 4 .next, .run 4 .next, .run 4 .next, .run 0 .next, .run 0 .next, .run 0 .next, .run 0 .next,
        .run 2 .next, .run 2 .next, .stop, .stopStep, .stopStep])
    (fun s => s.phase == .stopped && s.wire.isEmpty && (s.exec sampleNode (.run 2 .next)).isNone &&
      (s.exec sampleNode (.run 2 .fail)).any fun s' => s'.wire.isEmpty) = true := by decide +kernel

/-! ### C68 -/

/-- C68 as stated: the step after a failed read does not panic. -/
def C68_statement : Prop := ∀ (P : Params) (s s' : Sys) (i : Nat) (b : List UInt8), Reach P s →
  s.threads[i]? = some (.rdCheck b none) → s.exec P (.run i .next) = some s' → s'.crashed = none

/-- A read error while the node is running: the nil address of the failed read is dereferenced. -/
theorem C68_false : ¬ C68_statement := by
  intro h
  have h1 : after sampleNode [.start, .listen true, .run 1 .next, .run 3 .next, .run 3 .fail]
      (fun s => (s.threads[3]?).any (fun t => match t with | .rdCheck _ none => true | _ => false) &&
        (s.exec sampleNode (.run 3 .next)).any fun s' => s'.crashed == some .nilDereference) = true := by
    decide +kernel
  obtain ⟨s, hr, _, hs⟩ := after_reach h1
  rw [Bool.and_eq_true, Option.any_eq_true, Option.any_eq_true] at hs
  obtain ⟨⟨t, ht, hm⟩, s', he, hs⟩ := hs
  split at hm
  · have := h _ s s' 3 _ hr ht he
    rw [this] at hs
    cases hs
  · cases hm

/-- C68, the part that holds: a read that fails once Stop has been called ends the reader and changes
nothing else. Missing: a read that fails while the node is running (C68_false). -/
theorem C68_partial {P : Params} {s : Sys} {i : Nat} {b : List UInt8} (hcr : s.crashed = none)
    (ht : s.threads[i]? = some (.rdCheck b none)) (hs : s.shutdown = true) :
    s.exec P (.run i .next) = some { s with threads := s.threads.set i .done } := by
  unfold Sys.exec
  rw [hcr, if_neg (by simp)]
  simp only [ht, Sys.step, hs, if_true, Sys.goto, payloadOf]
  simp [hcr]

example : after sampleNode [.start, .listen true, .run 1 .next, .run 3 .next, .stop, .stopStep, .stopStep,
      .run 3 .fail, .run 3 .next]
    (fun s => s.crashed == none && s.threads[3]? == some .done) = true := by decide +kernel

/-! ### C75 -/

/-- C75: the situations in which the process panics: a read error while running; Stop on a node whose
channels are nil or closed; Stop on a controller without tickers; starting the update loop of a
controller with a frame rate outside 1 to 10^9; a packet with an opcode for which nil was registered as
call-back. In particular no datagram, no poll reply and no call of
SendDMXToAddress can cause a panic. -/
theorem C75_panics {P : Params} {s s' : Sys} {a : Act} {f : Fault} (h : Reach P s)
    (he : s.exec P a = some s') (hf : s'.crashed = some f) :
    (∃ i b, a = .run i .next ∧ s.threads[i]? = some (.rdCheck b none) ∧ s.phase = .started ∧
      f = .nilDereference) ∨
    (a = .stopStep ∧ s.control = .closing ∧
      ((s.chans = [] ∧ f = .closeOfNilChannel) ∨
       (∃ ch, s.chans.getLast? = some ch ∧ ch.down = true ∧ f = .closeOfClosedChannel))) ∨
    (a = .stop ∧ P.controller = true ∧ s.conns = [] ∧ f = .nilDereference) ∨
    (∃ i, a = .run i .next ∧ s.threads[i]? = some .duInit ∧ P.controller = true ∧
      ¬ (1 ≤ P.maxFPS ∧ P.maxFPS ≤ 1000000000)) ∨
    (∃ i p, a = .run i .next ∧ s.threads[i]? = some (.hStart p) ∧ s.callbacks.get p.getOpCode = some .nil ∧
      f = .nilDereference) := by
  have hl := life h
  have hcr := (exec_Step he).1
  have no : s'.crashed ≠ none := by rw [hf]; nofun
  unfold Sys.exec at he
  rw [hcr, if_neg (by simp)] at he
  cases a with
  | start =>
    dsimp only at he
    split at he
    · cases he
    · obtain ⟨r, hv, _⟩ := validate_spec P.config
      rw [hv] at he
      split at he
      · rename_i hv; cases hv
      · cases he; split at no <;> first | exact absurd rfl no | exact absurd hcr no
      · cases he; split at no <;> first | exact absurd rfl no | exact absurd hcr no
  | listen ok =>
    dsimp only at he
    split at he
    · cases he
    · split at he <;> (cases he; first | exact absurd rfl no | exact absurd hcr no)
  | stop =>
    dsimp only at he
    split at he
    · cases he
    · split at he
      · rename_i hc
        cases he; cases hf
        rw [Bool.and_eq_true, Bool.not_eq_true'] at hc
        refine .inr (.inr (.inl ⟨rfl, hc.1, ?_, rfl⟩))
        refine Classical.byContradiction fun hne => ?_
        rw [hl.wired hc.1 hne] at hc
        cases hc.2
      · cases he; first | exact absurd rfl no | exact absurd hcr no
  | stopStep =>
    dsimp only at he
    split at he
    · rename_i hc
      split at he
      · rename_i hg
        cases he; cases hf
        exact .inr (.inl ⟨rfl, hc, .inl ⟨lastIdx_none.mp (hl.cur.symm.trans hg), rfl⟩⟩)
      · rename_i g hg
        have hlast := lastIdx_get (hl.cur.symm.trans hg)
        have hlt := lastIdx_lt (hl.cur.symm.trans hg)
        split at he
        · rename_i hn
          rw [List.getElem?_eq_none_iff] at hn
          omega
        · rename_i ch hch
          split at he
          · cases he; cases hf
            exact .inr (.inl ⟨rfl, hc, .inr ⟨ch, hlast.symm.trans hch, by assumption, rfl⟩⟩)
          · cases he; exact absurd rfl no
    · split at he <;> (cases he; exact absurd rfl no)
    · rename_i hc
      have hcl := hl.cclosing (hl.ending hc) (.inr hc)
      split at he
      · rename_i hk
        rw [lastIdx_none.mp (hl.ccur.symm.trans hk)] at hcl
        cases hcl
      · rename_i k hk
        rw [if_neg (by rw [lastIdx_get (hl.ccur.symm.trans hk), hcl]; simp)] at he
        cases he; exact absurd rfl no
    · cases he
  | register | deregister =>
    dsimp only at he
    split at he
    · cases he
    · split at he <;> (cases he; first | exact absurd rfl no | exact absurd hcr no)
  | call =>
    dsimp only at he
    split at he
    · cases he; first | exact absurd rfl no | exact absurd hcr no
    · cases he
  | run i c =>
    dsimp only at he
    split at he
    · cases he
    · rename_i t ht
      rcases step_crash hcr he hf with ⟨_, h1⟩ | ⟨p, _, h1⟩ | ⟨b, rfl, rfl, h1, rfl⟩ | ⟨rfl, rfl, h1⟩ |
        ⟨p, rfl, rfl, h1, rfl⟩
      · rw [me_eq] at h1; cases h1
      · obtain ⟨r, hr⟩ := unmarshal_total p.data
        rw [hr] at h1; cases h1
      · refine .inl ⟨i, b, rfl, ht, ?_, rfl⟩
        refine Classical.byContradiction fun hp => ?_
        rw [hl.shut.mpr hp] at h1
        cases h1
      · refine .inr (.inr (.inr (.inl ⟨i, rfl, ht, ?_, ?_⟩)))
        · exact (threads_ok h _ (List.mem_of_getElem? ht)).2 rfl
        · intro hr
          obtain ⟨d, hd⟩ := (C56_partial P.maxFPS).1.mpr hr
          rw [hd] at h1; cases h1
      · exact .inr (.inr (.inr (.inr ⟨i, p, rfl, ht, h1, rfl⟩)))

/-- In these situations it does panic: in no other state does an action of the outside or a step of a goroutine
end the process. The update loop panics with a division by zero when the frame rate is 0, and otherwise in
time.NewTicker. -/
theorem C75_exact {P : Params} {s : Sys} {a : Act} {f : Fault} (h : Reach P s) :
    (∃ s', s.exec P a = some s' ∧ s'.crashed = some f) ↔ s.crashed = none ∧
    ((∃ i b, a = .run i .next ∧ s.threads[i]? = some (.rdCheck b none) ∧ s.phase = .started ∧
      f = .nilDereference) ∨
    (a = .stopStep ∧ s.control = .closing ∧
      ((s.chans = [] ∧ f = .closeOfNilChannel) ∨
       (∃ ch, s.chans.getLast? = some ch ∧ ch.down = true ∧ f = .closeOfClosedChannel))) ∨
    (a = .stop ∧ s.control = .idle ∧ P.controller = true ∧ s.conns = [] ∧ f = .nilDereference) ∨
    (∃ i, a = .run i .next ∧ s.threads[i]? = some .duInit ∧ ¬ (1 ≤ P.maxFPS ∧ P.maxFPS ≤ 1000000000) ∧
      f = if P.maxFPS = 0 then .divideByZero else .nonPositiveTicker) ∨
    (∃ i p, a = .run i .next ∧ s.threads[i]? = some (.hStart p) ∧ s.callbacks.get p.getOpCode = some .nil ∧
      f = .nilDereference)) := by
  have hl := life h
  have period : ∀ g, tickerPeriod P.maxFPS = .error g → g = if P.maxFPS = 0 then .divideByZero else .nonPositiveTicker := by
    intro g hg
    unfold tickerPeriod at hg
    split at hg
    · rename_i h0; rw [if_pos h0]; cases hg; rfl
    · rename_i h0
      rw [if_neg h0]
      dsimp only at hg
      split at hg <;> cases hg
      rfl
  constructor
  · rintro ⟨s', he, hf⟩
    have hcr := (exec_Step he).1
    refine ⟨hcr, ?_⟩
    rcases C75_panics h he hf with h1 | h1 | ⟨rfl, h2, h3, h4⟩ | ⟨i, rfl, h2, _, h4⟩ | h1
    · exact .inl h1
    · exact .inr (.inl h1)
    · refine .inr (.inr (.inl ⟨rfl, ?_, h2, h3, h4⟩))
      refine Classical.byContradiction fun hc => ?_
      unfold Sys.exec at he
      rw [hcr, if_neg (by simp)] at he
      dsimp only at he
      rw [if_pos hc] at he
      cases he
    · refine .inr (.inr (.inr (.inl ⟨i, rfl, h2, h4, ?_⟩)))
      rw [exec_run hcr h2] at he
      simp only [Sys.step] at he
      split at he
      · rename_i g hg
        cases he; cases hf
        exact period f hg
      · cases he; rw [show s.crashed = some f from hf] at hcr; cases hcr
    · exact .inr (.inr (.inr (.inr h1)))
  · rintro ⟨hcr, ⟨i, b, rfl, ht, hp, rfl⟩ | ⟨rfl, hc, h1⟩ | ⟨rfl, hc, hP, h1, rfl⟩ | ⟨i, rfl, ht, h1, rfl⟩ | ⟨i, p, rfl, ht, h1, rfl⟩⟩
    · have hs : s.shutdown = false := by
        cases hx : s.shutdown with
        | false => rfl
        | true => exact absurd hp (hl.shut.mp hx)
      refine ⟨s.panic .nilDereference, ?_, rfl⟩
      rw [exec_run hcr ht]
      simp only [Sys.step, hs]
      rfl
    · rcases h1 with ⟨h1, rfl⟩ | ⟨ch, h1, h2, rfl⟩
      · refine ⟨s.panic .closeOfNilChannel, ?_, rfl⟩
        unfold Sys.exec
        rw [hcr, if_neg (by simp)]
        simp only [hc, hl.cur, h1]
        rfl
      · refine ⟨s.panic .closeOfClosedChannel, ?_, rfl⟩
        cases hg : lastIdx s.chans with
        | none => rw [lastIdx_none.mp hg] at h1; cases h1
        | some g =>
          have := lastIdx_get hg
          rw [h1] at this
          unfold Sys.exec
          rw [hcr, if_neg (by simp)]
          simp only [hc, hl.cur, hg, this, h2]
          rfl
    · have ht : s.tickers = false := by
        cases hx : s.tickers with
        | false => rfl
        | true => exact absurd h1 (hl.tickers hx).2
      refine ⟨s.panic .nilDereference, ?_, rfl⟩
      unfold Sys.exec
      rw [hcr, if_neg (by simp)]
      dsimp only
      rw [if_neg (by simp [hc]), if_pos (by rw [hP, ht]; rfl)]
    · cases hd : tickerPeriod P.maxFPS with
      | ok d => exact absurd ((C56_partial P.maxFPS).1.mp ⟨d, hd⟩) h1
      | error g =>
        cases period g hd
        refine ⟨s.panic _, ?_, rfl⟩
        rw [exec_run hcr ht]
        simp only [Sys.step, hd]
    · refine ⟨s.panic .nilDereference, ?_, rfl⟩
      rw [exec_run hcr ht]
      simp only [Sys.step, h1]

/-- The update loop of a controller with MaxFPS(0). -/
example : after { sampleController with maxFPS := 0 } [.start, .listen true, .run 4 .next]
    (fun s => s.crashed == some .divideByZero) = true := by decide +kernel

/-- A nil call-back is there only if somebody registered it. -/
theorem C75_registered {P : Params} {as : List Act} {s : Sys} (h : (Sys.init P).execs P as = some s)
    (hn : ∀ o, Act.register o .nil ∉ as) : s.callable := by
  suffices ∀ s0 : Sys, s0.callable → s0.execs P as = some s → s.callable by
    refine this _ (fun o => ?_) h
    intro ho
    have := get_some_mem (m := (Sys.init P).callbacks) ho
    simp [Sys.init] at this
  clear h
  induction as with
  | nil => intro s0 h0 he; cases he; exact h0
  | cons a as ih =>
    intro s0 h0 he
    simp only [Sys.execs] at he
    cases hx : s0.exec P a with
    | none => rw [hx] at he; cases he
    | some s1 =>
      rw [hx] at he
      refine ih (fun o hm => hn o (List.mem_cons_of_mem _ hm)) s1 (fun o => ?_) he
      have hna : ∀ o, a ≠ .register o .nil := fun o ha => hn o (ha ▸ List.mem_cons_self ..)
      have hcr := (exec_Step hx).1
      unfold Sys.exec at hx
      rw [hcr, if_neg (by simp)] at hx
      cases a with
      | run i c =>
        dsimp only at hx
        split at hx
        · cases hx
        · rw [(step_frame hx).callbacks]; exact h0 o
      | register o' x =>
        dsimp only at hx
        repeat' split at hx
        all_goals cases hx
        all_goals first | exact h0 o | skip
        simp only [GoMap.get_set]
        split
        · intro hx; cases hx; exact hna o' rfl
        · exact h0 o
      | deregister o' =>
        dsimp only at hx
        repeat' split at hx
        all_goals cases hx
        all_goals first | exact h0 o | skip
        simp only [GoMap.get_del]
        split
        · nofun
        · exact h0 o
      | _ =>
        dsimp only at hx
        repeat' split at hx
        all_goals cases hx
        all_goals first | exact h0 o | (split <;> exact h0 o)

/-- A node with nil as call-back for ArtSync packets receives one. -/
example : after sampleNode ([.register OpCode.opSync .nil] ++ sampleStart ++
      sampleRead 3 ⟨[2, 0, 0, 2], 6454⟩ (magic ++ [0x00, 0x52, 0, 14, 0, 0]) ++ [.run 4 .next])
    (fun s => s.crashed == some .nilDereference) = true := by decide +kernel

/-! ### C58 and C68, exactly -/

/-- C58, exactly: a call of Stop panics iff the node is not started, or is that of a controller that has never
been able to listen. -/
theorem C58_exact {P : Params} {s : Sys} (h : Reach P s) (hc : s.control = .idle) (hcr : s.crashed = none) :
    (∃ s1, s.exec P .stop = some s1 ∧
      (s1.crashed ≠ none ∨ ∃ s2, s1.exec P .stopStep = some s2 ∧ s2.crashed ≠ none)) ↔
    s.phase ≠ .started ∨ (P.controller = true ∧ s.conns = []) := by
  have hl := life h
  constructor
  · rintro ⟨s1, he, hx⟩
    apply Classical.byContradiction
    intro hn
    have hp : s.phase = .started := Classical.byContradiction fun hp => hn (.inl hp)
    have ht : P.controller = true → s.conns ≠ [] := fun hP h0 => hn (.inr ⟨hP, h0⟩)
    obtain ⟨⟨s1', he', h0⟩, h1⟩ := C58_partial h hp hc ht hcr
    rw [he] at he'
    cases he'
    rcases hx with hx | ⟨s2, he2, hx⟩
    · exact hx h0
    · exact hx ((h1 [] s1 nofun (by simp only [Sys.execs, he]) h0).2 s2 he2)
  · intro hx
    by_cases hP : P.controller = true ∧ s.conns = []
    · obtain ⟨s1, h1, h2⟩ := (C75_exact (a := .stop) (f := .nilDereference) h).mpr
        ⟨hcr, .inr (.inr (.inl ⟨rfl, hc, hP.1, hP.2, rfl⟩))⟩
      exact ⟨s1, h1, .inl (by rw [h2]; simp)⟩
    · have hp : s.phase ≠ .started := hx.resolve_right hP
      have hstop : s.exec P .stop = some { s with shutdown := true, control := .closing, phase := .stopping } := by
        unfold Sys.exec
        rw [hcr, if_neg (by simp)]
        simp only [hc, ne_eq, not_true_eq_false, if_false]
        rw [if_neg]
        simp only [Bool.and_eq_true, Bool.not_eq_true', not_and, Bool.not_eq_false]
        exact fun h1 => hl.wired h1 fun h2 => hP ⟨h1, h2⟩
      have hr1 : Reach P { s with shutdown := true, control := .closing, phase := .stopping } := h.exec hstop
      have hch : s.chans = [] ∨ ∃ ch, s.chans.getLast? = some ch ∧ ch.down = true := by
        cases hph : s.phase with
        | fresh => exact .inl (hl.fresh hph).1
        | started => exact absurd hph hp
        | stopping => rcases hl.stopping.mp hph with h | h | h <;> (rw [hc] at h; cases h)
        | stopped => exact .inr (hl.closed (.inr (.inr hph)))
      refine ⟨_, hstop, .inr ?_⟩
      have hs : ∃ f, (s.chans = [] ∧ f = Fault.closeOfNilChannel) ∨
          ∃ ch, s.chans.getLast? = some ch ∧ ch.down = true ∧ f = Fault.closeOfClosedChannel := by
        rcases hch with h0 | ⟨ch, h1, h2⟩
        · exact ⟨_, .inl ⟨h0, rfl⟩⟩
        · exact ⟨_, .inr ⟨ch, h1, h2, rfl⟩⟩
      obtain ⟨f, hs⟩ := hs
      obtain ⟨s2, h1, h2⟩ := (C75_exact (a := .stopStep) (f := f) hr1).mpr ⟨hcr, .inr (.inl ⟨rfl, rfl, hs⟩)⟩
      exact ⟨s2, h1, by rw [h2]; simp⟩

/-- C68, exactly: the reader that got an error panics iff the node is started. -/
theorem C68_exact {P : Params} {s s' : Sys} {i : Nat} {b : List UInt8} (h : Reach P s)
    (ht : s.threads[i]? = some (.rdCheck b none)) (he : s.exec P (.run i .next) = some s') :
    s'.crashed = none ↔ s.phase ≠ .started := by
  have hcr := (exec_Step he).1
  constructor
  · intro hn hp
    obtain ⟨s1, h1, h2⟩ := (C75_exact (a := .run i .next) (f := .nilDereference) h).mpr
      ⟨hcr, .inl ⟨i, b, rfl, ht, hp, rfl⟩⟩
    rw [he] at h1
    cases h1
    rw [hn] at h2
    cases h2
  · intro hp
    have hs := (life h).shut.mpr hp
    rw [C68_partial hcr ht hs] at he
    cases he
    exact hcr

/-- A read error while the node runs, and one after Stop. -/
example : after sampleNode (sampleStart ++ [.run 3 .next, .run 3 .fail, .run 3 .next]) (fun s => s.crashed == some .nilDereference) = true ∧
    after sampleNode (sampleStart ++ [.run 3 .next, .stop, .run 3 .fail, .run 3 .next]) (fun s => s.crashed == none) = true := by
  decide +kernel

end Verif.Props
