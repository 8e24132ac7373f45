import Verif.Lemmas.ConcLife
import Verif.Spec.Callers
/-
Calls that do not overlap act like those of one goroutine.
-/
namespace Verif.Callers
open Packet Code Artnet Conc

/-- The channels of the node come from one call. -/
def Same (s : Shared) : Prop := s.send = s.recv ∧ s.recv = s.poll ∧ s.poll = s.reply

/-- Call number `i` is the only one that has not returned, it is at the given statement, and `sys` is the state of the model
with one caller. -/
def Mid (P : Params) (sys : Sys) (sh : Shared) (i : Nat) (κ : Kind) : Pc → Prop
  | .makeCDown => Same sh ∧ κ = .start ∧ P.controller = true ∧ sys.control = .idle ∧ sh.fields = sys.fields
  | .validate => Same sh ∧ κ = .start ∧ sys.control = .idle ∧ sh.fields = (sys.reset P).fields
  | .makeSend => κ = .start ∧ sys.control = .idle ∧ P.config.validate = .ok none ∧ sh.fields = (sys.reset P).fields
  | .makeRecv => sh.send = some i ∧ κ = .start ∧ sys.control = .idle ∧ P.config.validate = .ok none ∧
      sh.fields = (sys.reset P).fields
  | .makePoll => (sh.send = some i ∧ sh.recv = some i) ∧ κ = .start ∧ sys.control = .idle ∧ P.config.validate = .ok none ∧
      sh.fields = (sys.reset P).fields
  | .makeReply => (sh.send = some i ∧ sh.recv = some i ∧ sh.poll = some i) ∧ κ = .start ∧ sys.control = .idle ∧
      P.config.validate = .ok none ∧ sh.fields = (sys.reset P).fields
  | .makeDown => Same sh ∧ κ = .start ∧ sys.control = .idle ∧ P.config.validate = .ok none ∧
      sh.fields = (sys.reset P).fields
  | .lower => Same sh ∧ κ = .start ∧ sys.control = .idle ∧ P.config.validate = .ok none ∧
      sh.fields = { (sys.reset P).fields with
        downs := sys.fields.downs ++ [false], down := some sys.chans.length }
  | .listen | .fail => Same sh ∧ κ = .start ∧ sys.control = .listening ∧ sh.fields = sys.fields
  | .plug k => Same sh ∧ κ = .start ∧ sys.control = .listening ∧ k = sys.conns.length ∧
      sh.fields = { sys.fields with conns := sys.conns ++ [true] }
  | .begin => Same sh ∧ κ = .start ∧ sys.control = .listening ∧
      sh.fields = { sys.fields with conns := sys.conns ++ [true], conn := some sys.conns.length }
  | .tick => Same sh ∧ κ = .start ∧ P.controller = true ∧ sys.control = .listening ∧
      sh.fields = { sys.fields with conns := sys.conns ++ [true], conn := some sys.conns.length }
  | .beginC | .result => Same sh ∧ κ = .start ∧ P.controller = true ∧ sys.control = .idle ∧ sh.fields = sys.fields
  | .halt => Same sh ∧ κ = .stop ∧ P.controller = true ∧ sys.control = .idle ∧ sh.fields = sys.fields
  | .raise => Same sh ∧ κ = .stop ∧ (P.controller = true → sys.tickers = true) ∧ sys.control = .idle ∧
      sh.fields = sys.fields
  | .load => Same sh ∧ κ = .stop ∧ sys.control = .closing ∧ sh.fields = sys.fields
  | .close k => Same sh ∧ κ = .stop ∧ sys.control = .closing ∧ k = sys.cur ∧ sh.fields = sys.fields
  | .test => Same sh ∧ κ = .stop ∧ sys.control = .disconnecting ∧ sh.fields = sys.fields
  | .unplug => Same sh ∧ κ = .stop ∧ sys.control = .disconnecting ∧ sys.conn ≠ none ∧ sh.fields = sys.fields
  | .loadWait | .loadC => Same sh ∧ κ = .stop ∧ P.controller = true ∧ sys.control = .ending ∧ sh.fields = sys.fields
  | .wait k => Same sh ∧ κ = .stop ∧ P.controller = true ∧ sys.control = .ending ∧ k = sys.cur ∧ sh.fields = sys.fields
  | .closeC k => Same sh ∧ κ = .stop ∧ P.controller = true ∧ sys.control = .ending ∧ k = sys.ccur ∧ sh.fields = sys.fields
  | .check => Same sh ∧ κ ≠ .start ∧ κ ≠ .stop ∧ sys.control = .idle ∧ sh.fields = sys.fields
  | .write => Same sh ∧ κ ≠ .start ∧ κ ≠ .stop ∧ sys.shutdown = true ∧ sys.control = .idle ∧ sh.fields = sys.fields
  | .returned _ => Same sh ∧ sys.control = .idle ∧ sh.fields = sys.fields

theorem mid_first {P : Params} {sys : Sys} {sh : Shared} (i : Nat) (κ : Kind) (h1 : Same sh) (h2 : sys.control = .idle)
    (h3 : sh.fields = sys.fields) : Mid P sys sh i κ (κ.first P) := by
  cases κ with
  | start =>
    simp only [Kind.first]
    split
    · rename_i hc; exact ⟨h1, rfl, hc, h2, h3⟩
    · rename_i hc
      refine ⟨h1, rfl, h2, ?_⟩
      rw [Sys.reset, if_neg hc]; exact h3
  | stop =>
    simp only [Kind.first]
    split
    · rename_i hc; exact ⟨h1, rfl, hc, h2, h3⟩
    · rename_i hc; exact ⟨h1, rfl, fun h => absurd h hc, h2, h3⟩
  | register o h => exact ⟨h1, nofun, nofun, h2, h3⟩
  | deregister o => exact ⟨h1, nofun, nofun, h2, h3⟩

theorem reset_eq {P : Params} (s : Sys) : (s.reset P).control = s.control ∧ (s.reset P).crashed = s.crashed ∧
    (s.reset P).chans = s.chans := by
  unfold Sys.reset
  split <;> exact ⟨rfl, rfl, rfl⟩

/-- The life cycle actions of the model with one caller. -/
theorem do_start {P : Params} {sys : Sys} (hcr : sys.crashed = none) (hc : sys.control = .idle) :
    sys.exec P .start = match P.config.validate with
      | .error f => some ((sys.reset P).panic f)
      | .ok (some _) => some { sys.reset P with results := (sys.reset P).results ++ [false] }
      | .ok none => some (sys.reset P).makeChannels := by
  unfold Sys.exec
  rw [if_neg (by simp [hcr])]
  dsimp only
  rw [if_neg (by simp [hc])]
  rfl

theorem do_listen {P : Params} {sys : Sys} (ok : Bool) (hcr : sys.crashed = none) (hc : sys.control = .listening) :
    sys.exec P (.listen ok) = if ok then some { sys with
        conns := sys.conns ++ [true]
        conn := some sys.conns.length
        tickers := sys.tickers || P.controller
        threads := sys.threads ++ P.goroutines
        results := sys.results ++ [!(P.controller && sys.shutdownErr)]
        control := .idle }
      else some { sys with control := .idle, shutdownErr := true, results := sys.results ++ [false] } := by
  unfold Sys.exec
  rw [if_neg (by simp [hcr])]
  dsimp only
  rw [if_neg (by simp [hc])]

theorem do_stop {P : Params} {sys : Sys} (hcr : sys.crashed = none) (hc : sys.control = .idle) :
    sys.exec P .stop = if P.controller && !sys.tickers then some (sys.panic .nilDereference)
      else some { sys with shutdown := true, control := .closing, phase := .stopping } := by
  unfold Sys.exec
  rw [if_neg (by simp [hcr])]
  dsimp only
  rw [if_neg (by simp [hc])]

theorem do_close {P : Params} {sys : Sys} (hcr : sys.crashed = none) (hc : sys.control = .closing) :
    sys.exec P .stopStep = match sys.cur with
      | none => some (sys.panic .closeOfNilChannel)
      | some g =>
        match sys.chans[g]? with
        | none => some (sys.panic .closeOfNilChannel)
        | some ch =>
          if ch.down then some (sys.panic .closeOfClosedChannel)
          else some { sys with chans := sys.chans.set g { ch with down := true }, control := .disconnecting } := by
  unfold Sys.exec
  rw [if_neg (by simp [hcr])]
  dsimp only
  simp only [hc]
  rfl

theorem do_disconnect {P : Params} {sys : Sys} (hcr : sys.crashed = none) (hc : sys.control = .disconnecting) :
    sys.exec P .stopStep = if P.controller then some { sys with conns := sys.closeConn, control := .ending }
      else some { sys with conns := sys.closeConn, control := .idle, phase := .stopped } := by
  unfold Sys.exec
  rw [if_neg (by simp [hcr])]
  dsimp only
  simp only [hc]

theorem do_end {P : Params} {sys : Sys} (hcr : sys.crashed = none) (hc : sys.control = .ending) :
    sys.exec P .stopStep = match sys.ccur with
      | none => some (sys.panic .closeOfNilChannel)
      | some k =>
        if sys.cdown[k]? = some true then some (sys.panic .closeOfClosedChannel)
        else some { sys with cdown := sys.cdown.set k true, control := .idle, phase := .stopped } := by
  unfold Sys.exec
  rw [if_neg (by simp [hcr])]
  dsimp only
  simp only [hc]
  rfl

theorem do_register {P : Params} {sys : Sys} (o : OpCode) (h : Handler) (hcr : sys.crashed = none)
    (hc : sys.control = .idle) (hs : sys.shutdown = true) :
    sys.exec P (.register o h) = some { sys with callbacks := sys.callbacks.set o h } := by
  unfold Sys.exec
  rw [if_neg (by simp [hcr])]
  dsimp only
  rw [if_neg (by simp [hc]), hs]
  rfl

theorem do_deregister {P : Params} {sys : Sys} (o : OpCode) (hcr : sys.crashed = none)
    (hc : sys.control = .idle) (hs : sys.shutdown = true) :
    sys.exec P (.deregister o) = some { sys with callbacks := sys.callbacks.del o } := by
  unfold Sys.exec
  rw [if_neg (by simp [hcr])]
  dsimp only
  rw [if_neg (by simp [hc]), hs]
  rfl

theorem down_at (s : Sys) (k : Nat) : s.fields.downs[k]? = s.chans[k]?.map Chans.down := List.getElem?_map ..

/-- The channel that Stop closes exists. -/
theorem cur_exists {P : Params} {sys : Sys} (hr : Conc.Reach P sys) {k : Nat} (hk : sys.cur = some k) :
    ∃ ch, sys.chans[k]? = some ch := by
  rw [(life hr).cur] at hk
  exact ⟨_, List.getElem?_eq_getElem (lastIdx_lt hk)⟩

/-- One step of the only call that has not returned. -/
theorem mid_step {P : Params} {sys : Sys} {sh sh' : Shared} {i : Nat} {κ : Kind} {ok : Bool} {pc pc' : Pc}
    (hr : Conc.Reach P sys) (hcr : sys.crashed = none) (hm : Mid P sys sh i κ pc)
    (h : step P i κ ok sh pc = some (.ok (sh', pc'))) :
    ∃ sys', Conc.Reach P sys' ∧ sys'.crashed = none ∧ Mid P sys' sh' i κ pc' := by
  cases pc with
  | makeCDown =>
    obtain ⟨h1, h2, h3, h4, h5⟩ := hm
    cases h
    refine ⟨sys, hr, hcr, h1, h2, h4, ?_⟩
    simp only [h5, Sys.reset, if_pos h3]
    rfl
  | validate =>
    obtain ⟨h1, h2, h4, h5⟩ := hm
    simp only [step] at h
    cases hv : P.config.validate with
    | error f => rw [hv] at h; cases h
    | ok r =>
      rw [hv] at h
      cases r with
      | some e =>
        cases h
        refine ⟨{ sys.reset P with results := (sys.reset P).results ++ [false] },
          hr.exec (a := .start) (by rw [do_start hcr h4, hv]), ?_, h1, ?_, h5⟩
        · exact (reset_eq sys).2.1.trans hcr
        · exact (reset_eq sys).1.trans h4
      | none =>
        cases h
        exact ⟨sys, hr, hcr, h2, h4, hv, h5⟩
  | makeSend => cases h; exact ⟨sys, hr, hcr, rfl, hm⟩
  | makeRecv => cases h; exact ⟨sys, hr, hcr, ⟨hm.1, rfl⟩, hm.2⟩
  | makePoll => cases h; exact ⟨sys, hr, hcr, ⟨hm.1.1, hm.1.2, rfl⟩, hm.2⟩
  | makeReply =>
    cases h
    exact ⟨sys, hr, hcr, ⟨hm.1.1.trans hm.1.2.1.symm, hm.1.2.1.trans hm.1.2.2.symm, hm.1.2.2⟩, hm.2⟩
  | makeDown =>
    obtain ⟨h1, h2, h3, h4, h5⟩ := hm
    cases h
    refine ⟨sys, hr, hcr, h1, h2, h3, h4, ?_⟩
    have : (sys.reset P).fields.downs = sys.fields.downs := by simp only [Sys.fields, (reset_eq sys).2.2]
    simp only [h5, this]
    rw [show sys.fields.downs.length = sys.chans.length from List.length_map ..]
  | lower =>
    obtain ⟨h1, h2, h3, h4, h5⟩ := hm
    cases h
    refine ⟨_, hr.exec (a := .start) (by rw [do_start hcr h3, h4]), ?_, h1, h2, rfl, ?_⟩
    · exact (reset_eq sys).2.1.trans hcr
    · simp only [h5, Sys.makeChannels, Sys.fields, (reset_eq sys).2.2, List.map_append]
      rfl
  | listen =>
    obtain ⟨h1, h2, h3, h4⟩ := hm
    simp only [step] at h
    cases ok with
    | false => cases h; exact ⟨sys, hr, hcr, h1, h2, h3, h4⟩
    | true =>
      cases h
      refine ⟨sys, hr, hcr, h1, h2, h3, by rw [h4]; rfl, ?_⟩
      simp only [h4]
      rfl
  | fail =>
    obtain ⟨h1, h2, h3, h4⟩ := hm
    cases h
    refine ⟨_, hr.exec (a := .listen false) (do_listen false hcr h3), hcr, h1, rfl, ?_⟩
    simp only [h4]
    rfl
  | plug k =>
    obtain ⟨h1, h2, h3, rfl, h4⟩ := hm
    cases h
    exact ⟨sys, hr, hcr, h1, h2, h3, by simp only [h4]⟩
  | begin =>
    obtain ⟨h1, h2, h3, h4⟩ := hm
    cases h
    by_cases hc : P.controller = true
    · rw [if_pos hc]
      exact ⟨sys, hr, hcr, h1, h2, hc, h3, h4⟩
    · rw [if_neg hc]
      refine ⟨_, hr.exec (a := .listen true) (do_listen true hcr h3), hcr, h1, rfl, ?_⟩
      simp only [h4, Sys.fields, Bool.not_eq_true _ ▸ hc, Bool.or_false]
  | tick =>
    obtain ⟨h1, h2, hc, h3, h4⟩ := hm
    cases h
    refine ⟨_, hr.exec (a := .listen true) (do_listen true hcr h3), hcr, h1, h2, hc, rfl, ?_⟩
    simp only [h4, Sys.fields, hc, Bool.or_true]
  | beginC => cases h; exact ⟨sys, hr, hcr, hm⟩
  | result => cases h; exact ⟨sys, hr, hcr, hm.1, hm.2.2.2⟩
  | halt =>
    obtain ⟨h1, h2, hc, h3, h4⟩ := hm
    simp only [step] at h
    cases ht : sh.fields.tickers with
    | false => rw [ht] at h; cases h
    | true =>
      rw [ht] at h
      cases h
      rw [h4] at ht
      exact ⟨sys, hr, hcr, h1, h2, fun _ => ht, h3, h4⟩
  | raise =>
    obtain ⟨h1, h2, hc, h3, h4⟩ := hm
    cases h
    refine ⟨{ sys with shutdown := true, control := .closing, phase := .stopping }, hr.exec (a := .stop) ?_, hcr, h1, h2,
      rfl, ?_⟩
    · rw [do_stop hcr h3, if_neg]
      simp only [Bool.and_eq_true, Bool.not_eq_true', not_and, Bool.not_eq_false]
      exact hc
    · simp only [h4]
      rfl
  | load =>
    obtain ⟨h1, h2, h3, h4⟩ := hm
    cases h
    exact ⟨sys, hr, hcr, h1, h2, h3, by rw [h4]; rfl, h4⟩
  | close k =>
    obtain ⟨h1, h2, h3, rfl, h4⟩ := hm
    simp only [step, bind, Except.bind] at h
    cases hk : sys.cur with
    | none => rw [hk] at h; cases h
    | some k =>
      rw [hk] at h
      obtain ⟨ch, hch⟩ := cur_exists hr hk
      simp only [closeCh] at h
      rw [h4, down_at, hch] at h
      cases hd : ch.down with
      | true => simp only [Option.map_some, hd, if_true] at h; cases h
      | false =>
        simp only [Option.map_some, hd, reduceCtorEq, if_false, Option.some.injEq] at h
        cases h
        refine ⟨{ sys with chans := sys.chans.set k { ch with down := true }, control := .disconnecting },
          hr.exec (a := .stopStep) ?_, hcr, h1, h2, rfl, ?_⟩
        · rw [do_close hcr h3, hk]
          simp only [hch, hd]
          rfl
        · simp only [Sys.fields, List.map_set]
  | test =>
    obtain ⟨h1, h2, h3, h4⟩ := hm
    simp only [step] at h
    by_cases hc : sh.fields.conn = none
    · rw [if_pos hc] at h
      rw [h4] at hc
      have hc' : sys.conn = none := hc
      have hcl : sys.closeConn = sys.conns := by unfold Sys.closeConn; rw [hc']
      have hx := do_disconnect (P := P) hcr h3
      rw [hcl] at hx
      by_cases hp : P.controller = true
      · rw [if_pos hp] at h hx
        cases h
        exact ⟨_, hr.exec hx, hcr, h1, h2, hp, rfl, h4⟩
      · rw [if_neg hp] at h hx
        cases h
        exact ⟨_, hr.exec hx, hcr, h1, rfl, h4⟩
    · rw [if_neg hc] at h
      cases h
      exact ⟨sys, hr, hcr, h1, h2, h3, by rw [h4] at hc; exact hc, h4⟩
  | unplug =>
    obtain ⟨h1, h2, h3, h4, h5⟩ := hm
    simp only [step] at h
    cases hk : sys.conn with
    | none => exact absurd hk h4
    | some k =>
      have hk' : sh.fields.conn = some k := by rw [h5]; exact hk
      rw [hk'] at h
      have hcl : sys.closeConn = sys.conns.set k false := by unfold Sys.closeConn; rw [hk]
      have hx := do_disconnect (P := P) hcr h3
      rw [hcl] at hx
      by_cases hp : P.controller = true
      · simp only [if_pos hp] at h hx
        cases h
        refine ⟨_, hr.exec hx, hcr, h1, h2, hp, rfl, ?_⟩
        simp only [h5, Sys.fields, hk]
      · simp only [if_neg hp] at h hx
        cases h
        refine ⟨_, hr.exec hx, hcr, h1, rfl, ?_⟩
        simp only [h5, Sys.fields, hk]
  | loadWait =>
    obtain ⟨h1, h2, hc, h3, h4⟩ := hm
    cases h
    exact ⟨sys, hr, hcr, h1, h2, hc, h3, by rw [h4]; rfl, h4⟩
  | wait k =>
    obtain ⟨h1, h2, hc, h3, rfl, h4⟩ := hm
    cases hk : sys.cur with
    | none => rw [hk] at h; cases h
    | some k =>
      rw [hk] at h
      simp only [step] at h
      split at h
      · cases h; exact ⟨sys, hr, hcr, h1, h2, hc, h3, h4⟩
      · cases h
  | loadC =>
    obtain ⟨h1, h2, hc, h3, h4⟩ := hm
    cases h
    exact ⟨sys, hr, hcr, h1, h2, hc, h3, by rw [h4]; rfl, h4⟩
  | closeC k =>
    obtain ⟨h1, h2, hc, h3, rfl, h4⟩ := hm
    simp only [step, bind, Except.bind] at h
    cases hk : sys.ccur with
    | none => rw [hk] at h; cases h
    | some k =>
      rw [hk] at h
      simp only [closeCh] at h
      have he : sh.fields.cdowns = sys.cdown := by rw [h4]; rfl
      rw [he] at h
      by_cases hd : sys.cdown[k]? = some true
      · rw [if_pos hd] at h; cases h
      · rw [if_neg hd] at h
        cases h
        refine ⟨{ sys with cdown := sys.cdown.set k true, control := .idle, phase := .stopped },
          hr.exec (a := .stopStep) ?_, hcr, h1, rfl, ?_⟩
        · rw [do_end hcr h3, hk]
          simp only [if_neg hd]
        · simp only [h4]
          rfl
  | check =>
    obtain ⟨h1, h2, h2', h3, h4⟩ := hm
    simp only [step] at h
    cases hs : sh.fields.shutdown with
    | true =>
      rw [hs] at h
      cases h
      rw [h4] at hs
      exact ⟨sys, hr, hcr, h1, h2, h2', hs, h3, h4⟩
    | false =>
      rw [hs] at h
      cases h
      exact ⟨sys, hr, hcr, h1, h3, h4⟩
  | write =>
    obtain ⟨h1, h2, h2', hs, h3, h4⟩ := hm
    simp only [step] at h
    cases κ with
    | start => exact absurd rfl h2
    | stop => exact absurd rfl h2'
    | register o f =>
      cases h
      refine ⟨_, hr.exec (do_register o f hcr h3 hs), hcr, h1, h3, ?_⟩
      simp only [h4]
      rfl
    | deregister o =>
      cases h
      refine ⟨_, hr.exec (do_deregister o hcr h3 hs), hcr, h1, h3, ?_⟩
      simp only [h4]
      rfl
  | returned _ => cases h

/-- A panic of the only call that has not returned. -/
theorem mid_panic {P : Params} {sys : Sys} {sh : Shared} {i : Nat} {κ : Kind} {ok : Bool} {pc : Pc} {f : Fault}
    (hr : Conc.Reach P sys) (hcr : sys.crashed = none) (hm : Mid P sys sh i κ pc)
    (h : step P i κ ok sh pc = some (.error f)) : ∃ sys', Conc.Reach P sys' ∧ sys'.crashed = some f := by
  cases pc with
  | validate =>
    obtain ⟨h1, h2, h4, h5⟩ := hm
    simp only [step] at h
    cases hv : P.config.validate with
    | error f =>
      rw [hv] at h
      cases h
      exact ⟨_, hr.exec (a := .start) (by rw [do_start hcr h4, hv]), rfl⟩
    | ok r => rw [hv] at h; cases r <;> cases h
  | halt =>
    obtain ⟨h1, h2, hc, h3, h4⟩ := hm
    simp only [step] at h
    cases ht : sh.fields.tickers with
    | false =>
      rw [ht] at h
      cases h
      rw [h4] at ht
      exact ⟨_, hr.exec (a := .stop) (by rw [do_stop hcr h3, if_pos]; simp [hc]; exact ht), rfl⟩
    | true => rw [ht] at h; cases h
  | close k =>
    obtain ⟨h1, h2, h3, rfl, h4⟩ := hm
    simp only [step, bind, Except.bind] at h
    have hx := do_close (P := P) hcr h3
    cases hk : sys.cur with
    | none =>
      rw [hk] at h hx
      cases h
      exact ⟨_, hr.exec hx, rfl⟩
    | some k =>
      rw [hk] at h hx
      obtain ⟨ch, hch⟩ := cur_exists hr hk
      simp only [closeCh] at h
      simp only [hch] at hx
      rw [h4, down_at, hch] at h
      cases hd : ch.down with
      | true =>
        simp only [Option.map_some, hd, if_true] at h hx
        cases h
        exact ⟨_, hr.exec hx, rfl⟩
      | false =>
        simp only [Option.map_some, hd, reduceCtorEq, if_false, Option.some.injEq] at h
        cases h
  | unplug =>
    obtain ⟨h1, h2, h3, h4, h5⟩ := hm
    simp only [step] at h
    cases hk : sys.conn with
    | none => exact absurd hk h4
    | some k =>
      have hk' : sh.fields.conn = some k := by rw [h5]; exact hk
      rw [hk'] at h
      cases h
  | wait k =>
    cases k with
    | none => cases h
    | some k =>
      simp only [step] at h
      split at h <;> cases h
  | closeC k =>
    obtain ⟨h1, h2, hc, h3, rfl, h4⟩ := hm
    simp only [step, bind, Except.bind] at h
    have hx := do_end (P := P) hcr h3
    cases hk : sys.ccur with
    | none =>
      rw [hk] at h hx
      cases h
      exact ⟨_, hr.exec hx, rfl⟩
    | some k =>
      rw [hk] at h hx
      simp only [closeCh] at h
      have he : sh.fields.cdowns = sys.cdown := by rw [h4]; rfl
      rw [he] at h
      by_cases hd : sys.cdown[k]? = some true
      · rw [if_pos hd] at h
        simp only [if_pos hd] at hx
        cases h
        exact ⟨_, hr.exec hx, rfl⟩
      · rw [if_neg hd] at h; cases h
  | write => simp only [step] at h; split at h <;> cases h
  | listen => simp only [step] at h; split at h <;> cases h
  | _ => cases h

/-- What holds when calls do not overlap. -/
def Inv (P : Params) (s : State) : Prop :=
  match s.crashed with
  | some f => ∃ sys, Conc.Reach P sys ∧ sys.crashed = some f
  | none => ∃ sys, Conc.Reach P sys ∧ sys.crashed = none ∧
      ((s.quiet ∧ Same s.shared ∧ sys.control = .idle ∧ s.shared.fields = sys.fields) ∨
       ∃ i κ pc, s.calls[i]? = some (κ, pc) ∧ (∀ j c, j ≠ i → s.calls[j]? = some c → ∃ ok, c.2 = .returned ok) ∧
         Mid P sys s.shared i κ pc)

theorem exec_call {P : Params} {s s' : State} {κ : Kind} (h : s.exec P (.call κ) = some s') :
    s.crashed = none ∧ s' = { s with calls := s.calls ++ [(κ, κ.first P)] } := by
  unfold State.exec at h
  split at h
  · cases h
  · rename_i hc
    dsimp only at h
    cases h
    exact ⟨by simpa using hc, rfl⟩

theorem exec_go {P : Params} {s s' : State} {i : Nat} {ok : Bool} (h : s.exec P (.go i ok) = some s') :
    s.crashed = none ∧ ∃ κ pc, s.calls[i]? = some (κ, pc) ∧
      ((∃ f, step P i κ ok s.shared pc = some (.error f) ∧ s' = { s with crashed := some f }) ∨
       (∃ sh pc', step P i κ ok s.shared pc = some (.ok (sh, pc')) ∧
          s' = { s with shared := sh, calls := s.calls.set i (κ, pc') })) := by
  unfold State.exec at h
  split at h
  · cases h
  · rename_i hc
    refine ⟨by simpa using hc, ?_⟩
    dsimp only at h
    cases hi : s.calls[i]? with
    | none => rw [hi] at h; cases h
    | some c =>
      obtain ⟨κ, pc⟩ := c
      rw [hi] at h
      dsimp only at h
      refine ⟨κ, pc, rfl, ?_⟩
      cases hx : step P i κ ok s.shared pc with
      | none => rw [hx] at h; cases h
      | some r =>
        rw [hx] at h
        cases r with
        | error f => cases h; exact .inl ⟨f, rfl, rfl⟩
        | ok p => obtain ⟨sh, pc'⟩ := p; cases h; exact .inr ⟨sh, pc', rfl, rfl⟩

theorem quiet_at {s : State} (h : s.quiet) {i : Nat} {κ : Kind} {pc : Pc} (hi : s.calls[i]? = some (κ, pc)) :
    ∃ ok, pc = .returned ok := h _ (List.mem_of_getElem? hi)

theorem inv {P : Params} {s : State} (h : Serial P s) : Inv P s := by
  induction h with
  | init => exact ⟨Sys.init P, .init P, rfl, .inl ⟨(by intro c hc; cases hc), ⟨rfl, rfl, rfl⟩, rfl, rfl⟩⟩
  | step h hx hq ih =>
    rename_i s s' a
    cases a with
    | call κ =>
      obtain ⟨hcr, rfl⟩ := exec_call hx
      have hq := hq κ rfl
      simp only [Inv, hcr] at ih ⊢
      obtain ⟨sys, hr, hsc, ih⟩ := ih
      have hm : Same s.shared ∧ sys.control = .idle ∧ s.shared.fields = sys.fields := by
        rcases ih with ⟨_, hm⟩ | ⟨i, κ', pc, hi, _, hm⟩
        · exact hm
        · obtain ⟨ok, rfl⟩ := quiet_at hq hi
          exact hm
      refine ⟨sys, hr, hsc, .inr ⟨s.calls.length, κ, κ.first P, by simp, ?_, mid_first _ κ hm.1 hm.2.1 hm.2.2⟩⟩
      intro j c hj hjc
      rcases Nat.lt_or_ge j s.calls.length with hl | hl
      · rw [List.getElem?_append_left hl] at hjc
        exact hq c (List.mem_of_getElem? hjc)
      · rw [List.getElem?_append_right hl] at hjc
        cases hd : j - s.calls.length with
        | zero => omega
        | succ m => rw [hd] at hjc; cases hjc
    | go i ok =>
      obtain ⟨hcr, κ, pc, hi, hy⟩ := exec_go hx
      simp only [Inv, hcr] at ih
      obtain ⟨sys, hr, hsc, ih⟩ := ih
      have hrun : ∀ b, pc ≠ .returned b := by
        rintro b rfl
        rcases hy with ⟨f, hx, _⟩ | ⟨sh, pc', hx, _⟩ <;> cases hx
      rcases ih with ⟨hqs, _⟩ | ⟨i', κ', pc', hi', hothers, hm⟩
      · obtain ⟨b, rfl⟩ := quiet_at hqs hi
        exact absurd rfl (hrun b)
      · have he : i' = i := by
          apply Classical.byContradiction
          intro hne
          obtain ⟨b, hb⟩ := hothers i _ (fun h => hne h.symm) hi
          exact hrun b hb
        subst he
        rw [hi] at hi'
        cases hi'
        rcases hy with ⟨f, hz, rfl⟩ | ⟨sh, pc'', hz, rfl⟩
        · simp only [Inv]
          exact mid_panic hr hsc hm hz
        · simp only [Inv, hcr]
          obtain ⟨sys', hr', hsc', hm'⟩ := mid_step hr hsc hm hz
          refine ⟨sys', hr', hsc', .inr ⟨i', κ, pc'', ?_, ?_, hm'⟩⟩
          · rw [List.getElem?_set_self (List.getElem?_eq_some_iff.mp hi).1]
          · intro j c hj hjc
            rw [List.getElem?_set_ne (fun h => hj h.symm)] at hjc
            exact hothers j c hj hjc

/-- The state of the model with one caller when every call has returned. -/
theorem serial_quiet {P : Params} {s : State} (h : Serial P s) (hcr : s.crashed = none) (hq : s.quiet) :
    ∃ sys, Conc.Reach P sys ∧ sys.crashed = none ∧ sys.control = .idle ∧ s.shared.fields = sys.fields ∧ Same s.shared := by
  have hi := inv h
  simp only [Inv, hcr] at hi
  obtain ⟨sys, hr, hsc, ih⟩ := hi
  rcases ih with ⟨_, hm⟩ | ⟨i, κ', pc, hi, _, hm⟩
  · exact ⟨sys, hr, hsc, hm.2.1, hm.2.2, hm.1⟩
  · obtain ⟨ok, rfl⟩ := quiet_at hq hi
    exact ⟨sys, hr, hsc, hm.2.1, hm.2.2, hm.1⟩

theorem last_at {l : List α} {k : Nat} {a : α} (h : lastIdx l = some k) (ha : l.getLast? = some a) : l[k]? = some a := by
  unfold lastIdx at h
  split at h
  · cases h
  · cases h
    rw [List.getLast?_eq_getElem?] at ha
    exact ha

theorem consistent {P : Params} {sys : Sys} (hr : Conc.Reach P sys) (hc : sys.control = .idle) {sh : Shared}
    (hf : sh.fields = sys.fields) (hs : Same sh) : Consistent sh := by
  have hl := life hr
  refine ⟨?_, ?_, hs⟩
  · rw [hf]
    intro hsd
    have hp : sys.phase = .fresh ∨ sys.phase = .stopped := by
      have h1 := hl.shut.mp hsd
      have h2 : sys.phase ≠ .stopping := fun h => by
        have := hl.stopping.mp h
        rw [hc] at this
        rcases this with h | h | h <;> cases h
      cases hp : sys.phase
      · exact .inl rfl
      · exact absurd hp h1
      · exact absurd hp h2
      · exact .inr rfl
    rcases hp with hp | hp
    · obtain ⟨h1, h2⟩ := hl.fresh hp
      constructor
      · intro k hk
        have hk : sys.cur = some k := hk
        rw [hl.cur, h1] at hk; cases hk
      · intro k hk
        have hk : sys.conn = some k := hk
        rw [hl.conn, h2] at hk; cases hk
    · constructor
      · intro k hk
        have hk : sys.cur = some k := hk
        obtain ⟨ch, hch, hd⟩ := hl.closed (.inr (.inr hp))
        rw [hl.cur] at hk
        rw [down_at, last_at hk hch, Option.map_some, hd]
      · exact hl.unplugged (.inr hp)
  · rw [hf]
    intro hsd
    have hp : sys.phase = .started := by
      apply Classical.byContradiction
      intro h
      have := hl.shut.mpr h
      rw [show sys.shutdown = false from hsd] at this
      cases this
    obtain ⟨ch, hch, hd⟩ := hl.started hp
    cases hk : sys.cur with
    | none =>
      rw [hl.cur] at hk
      have : sys.chans = [] := by
        unfold lastIdx at hk
        split at hk
        · exact List.eq_nil_of_length_eq_zero ‹_›
        · cases hk
      rw [this] at hch
      cases hch
    | some k =>
      refine ⟨k, hk, ?_⟩
      rw [hl.cur] at hk
      rw [down_at, last_at hk hch, Option.map_some, hd]

/-- A call of Start that has not made the channel shutdownCh of the node yet. -/
def early : Kind × Pc → Bool
  | (.start, .makeCDown) | (.start, .validate) | (.start, .makeSend) | (.start, .makeRecv) | (.start, .makePoll)
  | (.start, .makeReply) | (.start, .makeDown) => true
  | _ => false

/-- The statements of each kind of call. -/
def fits : Kind → Pc → Bool
  | .start, .makeCDown | .start, .validate | .start, .makeSend | .start, .makeRecv | .start, .makePoll
  | .start, .makeReply | .start, .makeDown | .start, .lower | .start, .listen | .start, .fail | .start, .plug _
  | .start, .begin | .start, .tick | .start, .beginC | .start, .result | .start, .returned _
  | .stop, .halt | .stop, .raise | .stop, .load | .stop, .close _ | .stop, .test | .stop, .unplug | .stop, .loadWait
  | .stop, .wait _ | .stop, .loadC | .stop, .closeC _ | .stop, .returned _
  | .register .., .check | .register .., .write | .register .., .returned _
  | .deregister .., .check | .deregister .., .write | .deregister .., .returned _ => true
  | _, _ => false

/-- What one statement does to the channels shutdownCh of the node. -/
structure Change (sh sh' : Shared) (κ : Kind) (pc pc' : Pc) : Prop where
  fit : fits κ pc' = true
  made : sh'.fields.downs.length + (early (κ, pc')).toNat ≤ sh.fields.downs.length + (early (κ, pc)).toNat
  closed : sh'.fields.downs.countP id + (stopClosed (κ, pc)).toNat = sh.fields.downs.countP id + (stopClosed (κ, pc')).toNat
  grow : sh.fields.downs.length ≤ sh'.fields.downs.length
  down : ∀ k, sh'.fields.down = some k → k < sh'.fields.downs.length
  close : ∀ k, pc' = .close (some k) → k < sh'.fields.downs.length
  conn : sh.fields.conn ≠ none → sh'.fields.conn ≠ none
  unplug : pc' = .unplug → sh'.fields.conn ≠ none

theorem countP_close {l : List Bool} {k : Nat} (h : k < l.length) (hc : l[k]? ≠ some true) :
    (l.set k true).countP id = l.countP id + 1 := by
  have hf : l[k] = false := by
    rw [List.getElem?_eq_getElem h] at hc
    cases hb : l[k] with
    | false => rfl
    | true => rw [hb] at hc; exact absurd rfl hc
  rw [List.countP_set h, hf]
  simp

theorem change {P : Params} {sh sh' : Shared} {i : Nat} {κ : Kind} {ok : Bool} {pc pc' : Pc} (hf : fits κ pc = true)
    (hd : ∀ k, sh.fields.down = some k → k < sh.fields.downs.length)
    (hk : ∀ k, pc = .close (some k) → k < sh.fields.downs.length)
    (h : step P i κ ok sh pc = some (.ok (sh', pc'))) : Change sh sh' κ pc pc' := by
  cases pc with
  | makeCDown | makeSend | makeRecv | makePoll | makeReply | lower | fail | plug | tick | beginC | result | raise | loadWait
  | loadC =>
    cases κ <;> first | cases hf | skip
    cases h
    exact ⟨rfl, by simp [early], by simp [stopClosed], Nat.le_refl _, hd, nofun, (by first | exact id | nofun), nofun⟩
  | validate =>
    cases κ <;> first | cases hf | skip
    simp only [step, bind, Except.bind] at h
    split at h
    · cases h
    · rename_i r hr
      cases r <;> cases h <;>
        exact ⟨rfl, by simp [early], by simp [stopClosed], Nat.le_refl _, hd, nofun, id, nofun⟩
  | makeDown =>
    cases κ <;> first | cases hf | skip
    cases h
    refine ⟨rfl, by simp [early], by simp [stopClosed], by simp, ?_, nofun, id, nofun⟩
    intro k h
    cases h
    simp
  | listen =>
    cases κ <;> first | cases hf | skip
    simp only [step] at h
    split at h <;> cases h <;>
      exact ⟨rfl, by simp [early], by simp [stopClosed], Nat.le_refl _, hd, nofun, id, nofun⟩
  | begin =>
    cases κ <;> first | cases hf | skip
    cases h
    split <;> exact ⟨rfl, by simp [early], by simp [stopClosed], Nat.le_refl _, hd, nofun, id, nofun⟩
  | halt =>
    cases κ <;> first | cases hf | skip
    simp only [step] at h
    split at h
    · cases h
      exact ⟨rfl, by simp [early], by simp [stopClosed], Nat.le_refl _, hd, nofun, id, nofun⟩
    · cases h
  | load =>
    cases κ <;> first | cases hf | skip
    cases h
    exact ⟨rfl, by simp [early], by simp [stopClosed], Nat.le_refl _, hd, fun k h => hd k (Pc.close.inj h), id, nofun⟩
  | close k =>
    cases κ <;> first | cases hf | skip
    simp only [step, bind, Except.bind] at h
    cases k with
    | none => cases h
    | some k =>
      simp only [closeCh] at h
      by_cases hc : sh.fields.downs[k]? = some true
      · rw [if_pos hc] at h; cases h
      · rw [if_neg hc] at h
        cases h
        refine ⟨rfl, by simp [early], ?_, by simp, ?_, nofun, id, nofun⟩
        · rw [countP_close (hk k rfl) hc]; rfl
        · intro j hj
          rw [List.length_set]
          exact hd j hj
  | test =>
    cases κ <;> first | cases hf | skip
    cases h
    by_cases hc : sh.fields.conn = none
    · rw [if_pos hc]
      split <;> exact ⟨rfl, by simp [early], by simp [stopClosed], Nat.le_refl _, hd, nofun, id, nofun⟩
    · rw [if_neg hc]
      exact ⟨rfl, by simp [early], by simp [stopClosed], Nat.le_refl _, hd, nofun, id, fun _ => hc⟩
  | unplug =>
    cases κ <;> first | cases hf | skip
    simp only [step] at h
    cases hc : sh.fields.conn with
    | none => rw [hc] at h; cases h
    | some k =>
      rw [hc] at h
      cases h
      split <;> exact ⟨rfl, by simp [early], by simp [stopClosed], Nat.le_refl _, hd, nofun, (by rw [hc]; exact id), nofun⟩
  | wait k =>
    cases κ <;> first | cases hf | skip
    cases k with
    | none => cases h
    | some k =>
      simp only [step] at h
      split at h
      · cases h
        exact ⟨rfl, by simp [early], by simp [stopClosed], Nat.le_refl _, hd, nofun, id, nofun⟩
      · cases h
  | closeC k =>
    cases κ <;> first | cases hf | skip
    simp only [step, bind, Except.bind] at h
    split at h
    · cases h
    · cases h
      exact ⟨rfl, by simp [early], by simp [stopClosed], Nat.le_refl _, hd, nofun, id, nofun⟩
  | check =>
    cases h
    split <;> cases κ <;> first
      | cases hf; done
      | exact ⟨rfl, by simp [early], by simp [stopClosed], Nat.le_refl _, hd, nofun, id, nofun⟩
  | write =>
    cases κ <;> first | cases hf | skip
    all_goals
      cases h
      exact ⟨rfl, by simp [early], by simp [stopClosed], Nat.le_refl _, hd, nofun, id, nofun⟩
  | returned b => cases h

/-- What holds in every state, whoever makes the calls. -/
structure Count (s : State) : Prop where
  fit : ∀ c ∈ s.calls, fits c.1 c.2 = true
  made : s.shared.fields.downs.length + s.calls.countP early ≤ s.calls.countP isStart
  closed : s.shared.fields.downs.countP id = s.calls.countP stopClosed
  down : ∀ k, s.shared.fields.down = some k → k < s.shared.fields.downs.length
  close : ∀ c ∈ s.calls, ∀ k, c.2 = .close (some k) → k < s.shared.fields.downs.length
  unplug : ∀ c ∈ s.calls, c.2 = .unplug → s.shared.fields.conn ≠ none

theorem countP_set_eq {p : α → Bool} {l : List α} {i : Nat} {a b : α} (h : l[i]? = some a) :
    (l.set i b).countP p + (p a).toNat = l.countP p + (p b).toNat := by
  obtain ⟨hi, ha⟩ := List.getElem?_eq_some_iff.mp h
  rw [List.countP_set hi, ha]
  have : p a = true → 0 < l.countP p := fun hp => List.countP_pos_iff.mpr ⟨a, List.mem_of_getElem? h, hp⟩
  cases hpa : p a <;> cases hpb : p b <;> simp
  · have := this hpa; omega
  · have := this hpa; omega

theorem mem_set_cases {l : List α} {i : Nat} {a c : α} (h : c ∈ l.set i a) : c ∈ l ∨ c = a :=
  List.mem_or_eq_of_mem_set h

theorem Count.init : Count State.init := by
  refine ⟨?_, Nat.le_refl _, rfl, nofun, ?_, ?_⟩ <;> intro c hc <;> cases hc

theorem Count.exec {P : Params} {s s' : State} {a : Act} (h : Count s) (hx : s.exec P a = some s') : Count s' := by
  cases a with
  | call κ =>
    obtain ⟨_, rfl⟩ := exec_call hx
    have hm : ∀ c ∈ s.calls ++ [(κ, κ.first P)], c ∈ s.calls ∨ c = (κ, κ.first P) := by
      intro c hc
      rcases List.mem_append.mp hc with hc | hc
      · exact .inl hc
      · exact .inr (List.mem_singleton.mp hc)
    refine ⟨?_, ?_, ?_, h.down, ?_, ?_⟩
    · intro c hc
      rcases hm c hc with hc | rfl
      · exact h.fit c hc
      · cases κ <;> simp only [Kind.first] <;> first | rfl | (split <;> rfl)
    · have := h.made
      cases κ <;> simp only [Kind.first, List.countP_append, List.countP_singleton] <;>
        first | simp [early, isStart]; omega | (split <;> simp [early, isStart] <;> omega)
    · have := h.closed
      cases κ <;> simp only [Kind.first, List.countP_append, List.countP_singleton] <;>
        first | simp [stopClosed]; exact this | (split <;> simp [stopClosed] <;> exact this)
    · intro c hc
      rcases hm c hc with hc | rfl
      · exact h.close c hc
      · cases κ <;> simp only [Kind.first] <;> first | (intros; contradiction) | (split <;> intros <;> contradiction)
    · intro c hc
      rcases hm c hc with hc | rfl
      · exact h.unplug c hc
      · cases κ <;> simp only [Kind.first] <;> first | (intros; contradiction) | (split <;> intros <;> contradiction)
  | go i ok =>
    obtain ⟨_, κ, pc, hi, hy⟩ := exec_go hx
    rcases hy with ⟨f, hz, rfl⟩ | ⟨sh, pc', hz, rfl⟩
    · exact ⟨h.fit, h.made, h.closed, h.down, h.close, h.unplug⟩
    · have hmem := List.mem_of_getElem? hi
      have hc := change (κ := κ) (pc := pc) (h.fit _ hmem) h.down (h.close _ hmem) hz
      refine ⟨?_, ?_, ?_, hc.down, ?_, ?_⟩
      · intro c hm
        rcases mem_set_cases hm with hm | rfl
        · exact h.fit c hm
        · exact hc.fit
      · have h1 := countP_set_eq (p := early) (b := (κ, pc')) hi
        have h2 := countP_set_eq (p := isStart) (b := (κ, pc')) hi
        have h3 : isStart (κ, pc') = isStart (κ, pc) := by cases κ <;> rfl
        have h4 := h.made
        have h5 := hc.made
        rw [h3] at h2
        dsimp only
        omega
      · have h1 := countP_set_eq (p := stopClosed) (b := (κ, pc')) hi
        have h4 := h.closed
        have h5 := hc.closed
        dsimp only
        omega
      · intro c hm k hk
        rcases mem_set_cases hm with hm | rfl
        · exact Nat.lt_of_lt_of_le (h.close c hm k hk) hc.grow
        · exact hc.close k hk
      · intro c hm hk
        rcases mem_set_cases hm with hm | rfl
        · exact hc.conn (h.unplug c hm hk)
        · exact hc.unplug hk

/-- A property that the first state has and every action keeps. -/
theorem reach_ind {P : Params} {p : State → Prop} (h0 : p State.init) (hs : ∀ s a s', p s → s.exec P a = some s' → p s')
    {s : State} (h : Reach P s) : p s := by
  obtain ⟨as, h⟩ := h
  have aux : ∀ (as : List Act) (t : State), p t → t.execs P as = some s → p s := by
    intro as
    induction as with
    | nil => intro t ht h; cases h; exact ht
    | cons a as ih =>
      intro t ht h
      simp only [State.execs] at h
      cases hx : t.exec P a with
      | none => rw [hx] at h; cases h
      | some t' => rw [hx] at h; exact ih t' (hs t a t' ht hx) h
  exact aux as _ h0 h

theorem count {P : Params} {s : State} (h : Reach P s) : Count s := reach_ind Count.init (fun _ _ _ h hx => h.exec hx) h

/-- Statements of the Controller only. -/
def ctrlOnly : Pc → Bool
  | .makeCDown | .tick | .beginC | .result | .halt | .loadWait | .wait _ | .loadC | .closeC _ => true
  | _ => false

theorem ctrl_step {P : Params} {sh sh' : Shared} {i : Nat} {κ : Kind} {ok : Bool} {pc pc' : Pc}
    (h : step P i κ ok sh pc = some (.ok (sh', pc'))) (hc : ctrlOnly pc' = true) :
    ctrlOnly pc = true ∨ P.controller = true := by
  cases pc with
  | validate =>
    simp only [step, bind, Except.bind] at h
    split at h
    · cases h
    · rename_i r hr
      cases r <;> cases h <;> cases hc
  | listen =>
    simp only [step] at h
    split at h <;> cases h <;> cases hc
  | begin =>
    cases h
    split at hc
    · right; assumption
    · cases hc
  | test =>
    cases h
    split at hc
    · split at hc
      · right; assumption
      · cases hc
    · cases hc
  | unplug =>
    simp only [step] at h
    split at h
    · cases h
    · cases h
      split at hc
      · right; assumption
      · cases hc
  | close k =>
    simp only [step, bind, Except.bind] at h
    split at h
    · cases h
    · cases h; cases hc
  | check =>
    cases h
    split at hc <;> cases hc
  | write =>
    simp only [step] at h
    split at h <;> cases h <;> cases hc
  | returned _ => cases h
  | makeSend | makeRecv | makePoll | makeReply | makeDown | lower | fail | plug | raise | load => cases h; cases hc
  | _ => exact .inl rfl

/-- Calls at a statement of the Controller only occur with a Controller, and panics have a reason. -/
structure Faults (P : Params) (s : State) : Prop where
  ctrl : ∀ c ∈ s.calls, ctrlOnly c.2 = true → P.controller = true
  fault : ∀ f, s.crashed = some f → P.config.validate = .error f ∨ ((∃ c ∈ s.calls, isStop c = true) ∧
    (f = .closeOfNilChannel ∨ f = .closeOfClosedChannel ∨ (f = .nilDereference ∧ P.controller = true)))

theorem closeCh_error {l : List Bool} {k : Option Nat} {f : Fault} (h : closeCh l k = .error f) :
    f = .closeOfNilChannel ∨ f = .closeOfClosedChannel := by
  cases k with
  | none => cases h; exact .inl rfl
  | some k =>
    simp only [closeCh] at h
    split at h
    · cases h; exact .inr rfl
    · cases h

theorem step_error {P : Params} {sh : Shared} {i : Nat} {κ : Kind} {ok : Bool} {pc : Pc} {f : Fault}
    (hf : fits κ pc = true) (hu : pc = .unplug → sh.fields.conn ≠ none) (hc : ctrlOnly pc = true → P.controller = true)
    (h : step P i κ ok sh pc = some (.error f)) : P.config.validate = .error f ∨ (isStop (κ, pc) = true ∧
      (f = .closeOfNilChannel ∨ f = .closeOfClosedChannel ∨ (f = .nilDereference ∧ P.controller = true))) := by
  cases pc with
  | validate =>
    simp only [step, bind, Except.bind] at h
    cases hv : P.config.validate with
    | error g => rw [hv] at h; cases h; exact .inl rfl
    | ok r => rw [hv] at h; cases r <;> cases h
  | halt =>
    cases κ <;> first | (cases hf; done) | skip
    simp only [step] at h
    split at h
    · cases h
    · cases h; exact .inr ⟨rfl, .inr (.inr ⟨rfl, hc rfl⟩)⟩
  | close k =>
    cases κ <;> first | (cases hf; done) | skip
    simp only [step, bind, Except.bind] at h
    cases hx : closeCh sh.fields.downs k with
    | error g =>
      rw [hx] at h; cases h
      rcases closeCh_error hx with h | h
      · exact .inr ⟨rfl, .inl h⟩
      · exact .inr ⟨rfl, .inr (.inl h)⟩
    | ok l => rw [hx] at h; cases h
  | closeC k =>
    cases κ <;> first | (cases hf; done) | skip
    simp only [step, bind, Except.bind] at h
    cases hx : closeCh sh.fields.cdowns k with
    | error g =>
      rw [hx] at h; cases h
      rcases closeCh_error hx with h | h
      · exact .inr ⟨rfl, .inl h⟩
      · exact .inr ⟨rfl, .inr (.inl h)⟩
    | ok l => rw [hx] at h; cases h
  | unplug =>
    simp only [step] at h
    split at h
    · exact absurd ‹_› (hu rfl)
    · cases h
  | wait k =>
    cases k with
    | none => cases h
    | some k => simp only [step] at h; split at h <;> cases h
  | listen => simp only [step] at h; split at h <;> cases h
  | write => simp only [step] at h; split at h <;> cases h
  | _ => cases h

theorem faults {P : Params} {s : State} (h : Reach P s) : Faults P s := by
  have : Count s ∧ Faults P s := by
    refine reach_ind (p := fun s => Count s ∧ Faults P s) ?_ ?_ h
    · exact ⟨Count.init, (by intro c hc; cases hc), (by intro f hf; cases hf)⟩
    · intro s a s' ⟨hn, hs⟩ hx
      refine ⟨hn.exec hx, ?_⟩
      cases a with
      | call κ =>
        obtain ⟨hcr, rfl⟩ := exec_call hx
        refine ⟨?_, ?_⟩
        · intro c hc hct
          rcases List.mem_append.mp hc with hc | hc
          · exact hs.ctrl c hc hct
          · cases List.mem_singleton.mp hc
            cases κ with
            | start =>
              simp only [Kind.first] at hct
              split at hct
              · assumption
              · cases hct
            | stop =>
              simp only [Kind.first] at hct
              split at hct
              · assumption
              · cases hct
            | register | deregister => cases hct
        · intro f hf
          rw [show s.crashed = some f from hf] at hcr
          cases hcr
      | go i ok =>
        obtain ⟨hcr, κ, pc, hi, hy⟩ := exec_go hx
        have hmem := List.mem_of_getElem? hi
        rcases hy with ⟨f, hz, rfl⟩ | ⟨sh, pc', hz, rfl⟩
        · refine ⟨hs.ctrl, ?_⟩
          intro g hg
          cases hg
          rcases step_error (hn.fit _ hmem) (hn.unplug _ hmem) (hs.ctrl _ hmem) hz with h | ⟨h1, h2⟩
          · exact .inl h
          · exact .inr ⟨⟨_, hmem, h1⟩, h2⟩
        · refine ⟨?_, ?_⟩
          · intro c hm hct
            rcases mem_set_cases hm with hm | rfl
            · exact hs.ctrl c hm hct
            · rcases ctrl_step hz hct with h | h
              · exact hs.ctrl _ hmem h
              · exact h
          · intro g hg
            rw [show s.crashed = some g from hg] at hcr
            cases hcr
  exact this.2

/-- How many statements a call has left at most. -/
def rank : Pc → Nat
  | .makeCDown => 15
  | .validate => 14
  | .makeSend => 13
  | .makeRecv => 12
  | .makePoll => 11
  | .makeReply => 10
  | .makeDown => 9
  | .lower => 8
  | .listen => 7
  | .fail => 1
  | .plug _ => 6
  | .begin => 5
  | .tick => 4
  | .beginC => 3
  | .result => 2
  | .halt => 10
  | .raise => 9
  | .load => 8
  | .close _ => 7
  | .test => 6
  | .unplug => 5
  | .loadWait => 4
  | .wait _ => 3
  | .loadC => 2
  | .closeC _ => 1
  | .check => 2
  | .write => 1
  | .returned _ => 0

theorem rank_step {P : Params} {sh sh' : Shared} {i : Nat} {κ : Kind} {ok : Bool} {pc pc' : Pc}
    (h : step P i κ ok sh pc = some (.ok (sh', pc'))) : rank pc' < rank pc := by
  cases pc with
  | validate =>
    simp only [step, bind, Except.bind] at h
    split at h
    · cases h
    · rename_i r hr
      cases r <;> cases h <;> simp [rank]
  | listen => simp only [step] at h; split at h <;> cases h <;> simp [rank]
  | begin => cases h; split <;> simp [rank]
  | test => cases h; split <;> first | (split <;> simp [rank]; done) | (simp [rank]; done)
  | unplug =>
    simp only [step] at h
    split at h
    · cases h
    · cases h; split <;> simp [rank]
  | close k =>
    simp only [step, bind, Except.bind] at h
    split at h
    · cases h
    · cases h; simp [rank]
  | closeC k =>
    simp only [step, bind, Except.bind] at h
    split at h
    · cases h
    · cases h; simp [rank]
  | halt => simp only [step] at h; split at h <;> cases h; simp [rank]
  | wait k =>
    cases k with
    | none => cases h
    | some k => simp only [step] at h; split at h <;> cases h; simp [rank]
  | check => cases h; split <;> simp [rank]
  | write => simp only [step] at h; split at h <;> cases h <;> simp [rank]
  | returned _ => cases h
  | _ => cases h; simp [rank]

/-- Only the wait at controller.go:144-146 can keep a call from going on. -/
theorem step_go {P : Params} {sh : Shared} {i : Nat} {κ : Kind} (ok : Bool) {pc : Pc} (hf : fits κ pc = true)
    (hw : ∀ k, pc = .wait k → ∃ j, k = some j ∧ sh.fields.downs[j]? = some true) (hr : ∀ b, pc ≠ .returned b) :
    ∃ r, step P i κ ok sh pc = some r := by
  cases pc with
  | returned b => exact absurd rfl (hr b)
  | wait k =>
    obtain ⟨j, rfl, hj⟩ := hw k rfl
    exact ⟨.ok (sh, .loadC), by simp only [step, if_pos hj]⟩
  | listen => simp only [step]; split <;> exact ⟨_, rfl⟩
  | unplug => simp only [step]; split <;> exact ⟨_, rfl⟩
  | write => cases κ <;> first | (cases hf; done) | exact ⟨_, rfl⟩
  | _ => exact ⟨_, rfl⟩

theorem exec_of_step {P : Params} {s : State} {i : Nat} {κ : Kind} {ok : Bool} {pc : Pc} {r : Go (Shared × Pc)}
    (hcr : s.crashed = none) (hi : s.calls[i]? = some (κ, pc)) (h : step P i κ ok s.shared pc = some r) :
    ∃ s', s.exec P (.go i ok) = some s' := by
  unfold State.exec
  rw [if_neg (by simp [hcr])]
  dsimp only
  rw [hi]
  dsimp only
  rw [h]
  cases r with
  | error f => exact ⟨_, rfl⟩
  | ok p => exact ⟨_, rfl⟩

theorem execs_snoc {P : Params} {as : List Act} {a : Act} {t u v : State} (h1 : t.execs P as = some u)
    (h2 : u.exec P a = some v) : t.execs P (as ++ [a]) = some v := by
  induction as generalizing t with
  | nil => cases h1; simp only [List.nil_append, State.execs, h2]
  | cons b as ih =>
    simp only [State.execs, List.cons_append] at h1 ⊢
    cases hx : t.exec P b with
    | none => rw [hx] at h1; cases h1
    | some t' => rw [hx] at h1; exact ih h1

theorem reach_exec {P : Params} {s s' : State} {a : Act} (h : Reach P s) (hx : s.exec P a = some s') : Reach P s' := by
  obtain ⟨as, h⟩ := h
  exact ⟨as ++ [a], execs_snoc h hx⟩

theorem Serial.reach {P : Params} {s : State} (h : Serial P s) : Reach P s := by
  induction h with
  | init => exact ⟨[], rfl⟩
  | step _ hx _ ih => exact reach_exec ih hx

/-- When calls do not overlap, Stop does not have to wait. -/
theorem serial_wait {P : Params} {s : State} (h : Serial P s) (hcr : s.crashed = none) {i : Nat} {κ : Kind} {k : Option Nat}
    (hi : s.calls[i]? = some (κ, .wait k)) : ∃ j, k = some j ∧ s.shared.fields.downs[j]? = some true := by
  have hv := inv h
  simp only [Inv, hcr] at hv
  obtain ⟨sys, hr, hsc, ih⟩ := hv
  rcases ih with ⟨hq, _⟩ | ⟨i', κ', pc', hi', hothers, hm⟩
  · obtain ⟨b, hb⟩ := quiet_at hq hi
    cases hb
  · have he : i = i' := by
      apply Classical.byContradiction
      intro hne
      obtain ⟨b, hb⟩ := hothers i _ hne hi
      cases hb
    subst he
    rw [hi] at hi'
    cases hi'
    obtain ⟨h1, h2, hc, h3, rfl, h4⟩ := hm
    have hl := life hr
    obtain ⟨ch, hch, hd⟩ := hl.closed (.inr (.inl h3))
    cases hk : sys.cur with
    | none =>
      rw [hl.cur] at hk
      unfold lastIdx at hk
      split at hk
      · rename_i hz
        rw [List.eq_nil_of_length_eq_zero hz] at hch; cases hch
      · cases hk
    | some j =>
      refine ⟨j, rfl, ?_⟩
      rw [hl.cur] at hk
      rw [h4, down_at, last_at hk hch, Option.map_some, hd]

/-- A Stop of a Controller that waits for a channel that only another Stop would close. -/
structure Stuck (s : State) (i k : Nat) : Prop where
  waits : s.calls[i]? = some (.stop, .wait (some k))
  opened : s.shared.fields.downs[k]? = some false
  others : ∀ c ∈ s.calls, isStop c = true → stopClosed c = true

theorem getElem?_grow {l : List Bool} {k : Nat} {a b : Bool} (h : l[k]? = some a) : (l ++ [b])[k]? = some a := by
  rw [List.getElem?_append_left (List.getElem?_eq_some_iff.mp h).1]
  exact h

/-- Only Stop closes the channel. -/
theorem step_downs {P : Params} {sh sh' : Shared} {i : Nat} {κ : Kind} {ok : Bool} {pc pc' : Pc}
    (hf : fits κ pc = true) (hs : isStop (κ, pc) = true → stopClosed (κ, pc) = true)
    (h : step P i κ ok sh pc = some (.ok (sh', pc'))) {k : Nat} (hk : sh.fields.downs[k]? = some false) :
    sh'.fields.downs[k]? = some false ∧ (isStop (κ, pc') = true → stopClosed (κ, pc') = true) := by
  cases pc with
  | makeDown =>
    cases κ <;> first | (cases hf; done) | skip
    cases h
    exact ⟨getElem?_grow hk, nofun⟩
  | validate =>
    cases κ <;> first | (cases hf; done) | skip
    simp only [step, bind, Except.bind] at h
    split at h
    · cases h
    · rename_i r hr
      cases r <;> cases h <;> exact ⟨hk, nofun⟩
  | listen =>
    cases κ <;> first | (cases hf; done) | skip
    simp only [step] at h
    split at h <;> cases h <;> exact ⟨hk, nofun⟩
  | begin =>
    cases κ <;> first | (cases hf; done) | skip
    cases h
    split <;> exact ⟨hk, nofun⟩
  | halt | raise | load | close =>
    cases κ <;> first | (cases hf; done) | skip
    exact absurd (hs rfl) nofun
  | test =>
    cases κ <;> first | (cases hf; done) | skip
    cases h
    refine ⟨hk, fun _ => ?_⟩
    split
    · split <;> rfl
    · rfl
  | unplug =>
    cases κ <;> first | (cases hf; done) | skip
    simp only [step] at h
    split at h
    · cases h
    · cases h
      refine ⟨hk, fun _ => ?_⟩
      split <;> rfl
  | wait j =>
    cases κ <;> first | (cases hf; done) | skip
    cases j with
    | none => cases h
    | some j =>
      simp only [step] at h
      split at h
      · cases h; exact ⟨hk, fun _ => rfl⟩
      · cases h
  | closeC j =>
    cases κ <;> first | (cases hf; done) | skip
    simp only [step, bind, Except.bind] at h
    split at h
    · cases h
    · cases h; exact ⟨hk, fun _ => rfl⟩
  | loadWait | loadC =>
    cases κ <;> first | (cases hf; done) | skip
    cases h
    exact ⟨hk, fun _ => rfl⟩
  | check =>
    cases κ <;> first | (cases hf; done) | skip
    all_goals
      cases h
      exact ⟨hk, nofun⟩
  | write =>
    cases κ <;> first | (cases hf; done) | skip
    all_goals
      cases h
      exact ⟨hk, nofun⟩
  | returned b => cases h
  | _ =>
    cases κ <;> first | (cases hf; done) | skip
    cases h
    exact ⟨hk, nofun⟩

theorem Stuck.exec {P : Params} {s s' : State} {i k : Nat} {a : Act} (h : Stuck s i k) (hn : Count s) (ha : a ≠ .call .stop)
    (hx : s.exec P a = some s') : Stuck s' i k := by
  have hlt := (List.getElem?_eq_some_iff.mp h.waits).1
  cases a with
  | call κ =>
    obtain ⟨_, rfl⟩ := exec_call hx
    refine ⟨?_, h.opened, ?_⟩
    · rw [List.getElem?_append_left hlt]; exact h.waits
    · intro c hc hs
      rcases List.mem_append.mp hc with hc | hc
      · exact h.others c hc hs
      · cases List.mem_singleton.mp hc
        cases κ with
        | stop => exact absurd rfl ha
        | _ => cases hs
  | go j ok =>
    obtain ⟨_, κ, pc, hj, hy⟩ := exec_go hx
    have hmem := List.mem_of_getElem? hj
    rcases hy with ⟨f, hz, rfl⟩ | ⟨sh, pc', hz, rfl⟩
    · exact ⟨h.waits, h.opened, h.others⟩
    · have hne : j ≠ i := by
        rintro rfl
        rw [h.waits] at hj
        cases hj
        simp only [step, h.opened, Option.some.injEq, Bool.false_eq_true, if_false] at hz
        cases hz
      obtain ⟨h1, h2⟩ := step_downs (hn.fit _ hmem) (h.others _ hmem) hz h.opened
      refine ⟨?_, h1, ?_⟩
      · rw [List.getElem?_set_ne hne]; exact h.waits
      · intro c hm hs
        rcases mem_set_cases hm with hm | rfl
        · exact h.others c hm hs
        · exact h2 hs

theorem Stuck.execs {P : Params} {as : List Act} {s s' : State} {i k : Nat} (h : Stuck s i k) (hn : Count s)
    (ha : ∀ a ∈ as, a ≠ .call .stop) (hx : s.execs P as = some s') : Stuck s' i k := by
  induction as generalizing s with
  | nil => cases hx; exact h
  | cons a as ih =>
    simp only [State.execs] at hx
    cases hy : s.exec P a with
    | none => rw [hy] at hx; cases hx
    | some t =>
      rw [hy] at hx
      exact ih (h.exec hn (ha a List.mem_cons_self) hy) (hn.exec hy) (fun b hb => ha b (List.mem_cons_of_mem _ hb)) hx

end Verif.Callers
