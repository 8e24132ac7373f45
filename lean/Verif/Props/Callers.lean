import Verif.Props.Receive
import Verif.Lemmas.Callers
/-
Life cycle calls made by several goroutines: C114, C115, C116, C117.
-/
namespace Verif.Props
open Spec Packet Code Artnet Callers

/-- A test of the state after some actions. -/
def ran (P : Conc.Params) (as : List Act) (f : State → Bool) : Bool := (State.init.execs P as).any f

theorem ran_reach {P : Conc.Params} {as : List Act} {f : State → Bool} (h : ran P as f = true) :
    ∃ s, State.init.execs P as = some s ∧ Reach P s ∧ f s = true := by
  unfold ran at h
  cases hx : State.init.execs P as with
  | none => rw [hx] at h; cases h
  | some s => rw [hx] at h; exact ⟨s, rfl, ⟨as, hx⟩, h⟩

/-- Call number `i` goes on by `n` statements. -/
def on (i n : Nat) : List Act := List.replicate n (.go i true)

def allReturned (s : State) : Bool := s.calls.all fun c => match c.2 with | .returned _ => true | _ => false

theorem quiet_of {s : State} (h : allReturned s = true) : s.quiet := by
  intro c hc
  have := List.all_eq_true.mp h c hc
  split at this
  · exact ⟨_, ‹_›⟩
  · cases this

/-! ### C114 -/

/-- C114 as stated: Start, Stop, RegisterCallback and DeregisterCallback can be called by several goroutines; when they have
all returned the node is either stopped or started. -/
def C114_statement : Prop :=
  ∀ (P : Conc.Params) (s : State), Reach P s → s.crashed = none → s.quiet → Consistent s.shared

/-- Stop sets the flag, a second Start makes new channels and lowers the flag, Stop closes the new channel and the old
connection, and Start goes on: every call has returned, the flag says that the node runs, a connection is open, and the
channel that its loops watch is closed. -/
def tangled : List Act :=
  [.call .start] ++ on 0 10 ++ [.call .stop] ++ on 1 1 ++ [.call .start] ++ on 2 7 ++ on 1 4 ++ on 2 3

theorem C114_false : ¬ C114_statement := by
  intro h
  have hw : ran sampleNode tangled (fun s => s.crashed.isNone && allReturned s && !s.shared.fields.shutdown &&
      s.shared.fields.down == some 1 && s.shared.fields.downs == [false, true] &&
      s.shared.fields.conns == [false, true]) = true := by decide +kernel
  obtain ⟨s, _, hr, hs⟩ := ran_reach hw
  simp only [Bool.and_eq_true, beq_iff_eq, Option.isNone_iff_eq_none, Bool.not_eq_true'] at hs
  obtain ⟨⟨⟨⟨⟨h1, h2⟩, h3⟩, h4⟩, h5⟩, _⟩ := hs
  obtain ⟨k, hk, ho⟩ := (h _ s hr h1 (quiet_of h2)).2.1 h3
  rw [h4] at hk
  cases hk
  rw [h5] at ho
  cases ho

/-- C114 as far as it holds: when no call is made before every earlier one has returned, the fields fit together after every
call. -/
theorem C114_partial {P : Conc.Params} {s : State} (h : Serial P s) (hcr : s.crashed = none) (hq : s.quiet) :
    Consistent s.shared := by
  obtain ⟨sys, hr, _, hc, hf, hs⟩ := serial_quiet h hcr hq
  exact consistent hr hc hf hs

/-- The calls, statement after statement, leave the fields as the calls of Model/Conc.lean do, and panic only where those
do. -/
theorem C114_refines {P : Conc.Params} {s : State} (h : Serial P s) :
    (s.crashed = none → s.quiet →
      ∃ sys, Conc.Reach P sys ∧ sys.crashed = none ∧ sys.control = .idle ∧ s.shared.fields = sys.fields) ∧
    (∀ f, s.crashed = some f → ∃ sys, Conc.Reach P sys ∧ sys.crashed = some f) := by
  refine ⟨fun hcr hq => ?_, fun f hf => ?_⟩
  · obtain ⟨sys, hr, hsc, hc, hf, _⟩ := serial_quiet h hcr hq
    exact ⟨sys, hr, hsc, hc, hf⟩
  · have := inv h
    simp only [Callers.Inv, hf] at this
    exact this

/-- A Controller that is started, stopped and started again. -/
example : ran sampleController ([.call .start] ++ on 0 14 ++ [.call .stop] ++ on 1 10 ++ [.call .start] ++ on 2 14)
    (fun s => s.crashed.isNone && allReturned s && !s.shared.fields.shutdown && s.shared.fields.down == some 1 &&
      s.shared.fields.downs == [true, false] && s.shared.fields.conns == [false, true] && s.shared.loops == 2 &&
      s.shared.fields.cdowns == [true, false] && s.shared.cloops == 2) = true := by decide +kernel

/-! ### C115 -/

/-- C115: however the calls overlap, at most as many calls of Stop get past `close(n.shutdownCh)` as there were calls of
Start. -/
theorem C115_count {P : Conc.Params} {s : State} (h : Reach P s) :
    s.calls.countP stopClosed ≤ s.calls.countP isStart := by
  have hc := count h
  have h1 := hc.made
  have h2 := hc.closed
  have h3 : s.shared.fields.downs.countP id ≤ s.shared.fields.downs.length := List.countP_le_length
  omega

/-- Every call can return only if there were no more calls of Stop than of Start; otherwise the program panics or a call of
Stop has not closed the channel yet. -/
theorem C115_more {P : Conc.Params} {s : State} (h : Reach P s) (hq : s.quiet) :
    s.calls.countP isStop ≤ s.calls.countP isStart := by
  refine Nat.le_trans ?_ (C115_count h)
  refine List.countP_mono_left ?_
  intro c hc hs
  obtain ⟨ok, hok⟩ := hq c hc
  obtain ⟨κ, pc⟩ := c
  cases hok
  cases κ with
  | stop => rfl
  | _ => cases hs

/-- Without a call of Stop, calls of Start and of RegisterCallback never panic, unless the check of the configuration does;
with Stop, there are three kinds of panic. -/
theorem C115_faults {P : Conc.Params} {s : State} {f : Fault} (h : Reach P s) (hf : s.crashed = some f) :
    P.config.validate = .error f ∨ ((∃ c ∈ s.calls, isStop c = true) ∧
      (f = .closeOfNilChannel ∨ f = .closeOfClosedChannel ∨ (f = .nilDereference ∧ P.controller = true))) :=
  (faults h).fault f hf

/-- Two goroutines stop a node that was started once: the channel is closed twice. -/
example : ran sampleNode ([.call .start] ++ on 0 10 ++ [.call .stop, .call .stop] ++ on 1 2 ++ on 2 2 ++ on 2 1 ++ on 1 1)
    (fun s => s.crashed == some .closeOfClosedChannel && s.calls.countP stopClosed == 1 && s.calls.countP isStart == 1)
    = true := by decide +kernel

/-- Two goroutines start the node and both stop it; the second Start is done when the first Stop begins. -/
example : ran sampleNode ([.call .start, .call .start] ++ on 0 10 ++ on 1 10 ++ [.call .stop, .call .stop] ++ on 2 5 ++ on 3 3)
    (fun s => s.crashed == some .closeOfClosedChannel && s.shared.fields.downs == [false, true]) = true := by decide +kernel

/-- The bound is reached: a Stop after each Start. -/
example : ran sampleNode ([.call .start] ++ on 0 10 ++ [.call .stop] ++ on 1 5 ++ [.call .start] ++ on 2 10 ++ [.call .stop] ++
    on 3 5) (fun s => allReturned s && s.calls.countP stopClosed == 2 && s.calls.countP isStart == 2) = true := by
  decide +kernel

/-! ### C116 -/

/-- C116 as stated: Start, Stop, RegisterCallback and DeregisterCallback never wait. -/
def C116_statement : Prop := ∀ (P : Conc.Params) (s : State), Reach P s → s.crashed = none →
  ∀ (i : Nat) (κ : Kind) (pc : Pc), s.calls[i]? = some (κ, pc) → (∃ ok, pc = .returned ok) ∨ ∃ s', s.exec P (.go i true) = some s'

/-- A second Start replaces shutdownCh of the node after Stop of the Controller has closed it and before it waits for it. -/
def waiting : List Act := [.call .start] ++ on 0 14 ++ [.call .stop] ++ on 1 6 ++ [.call .start] ++ on 2 7 ++ on 1 1

theorem C116_false : ¬ C116_statement := by
  intro h
  have hw : ran sampleController waiting (fun s => s.crashed.isNone && (s.calls[1]?.map Prod.snd) == some (.wait (some 1)) &&
      (s.exec sampleController (.go 1 true)).isNone) = true := by decide +kernel
  obtain ⟨s, _, hr, hs⟩ := ran_reach hw
  simp only [Bool.and_eq_true, beq_iff_eq, Option.isNone_iff_eq_none] at hs
  obtain ⟨⟨h1, h2⟩, h3⟩ := hs
  cases hc : s.calls[1]? with
  | none => rw [hc] at h2; cases h2
  | some c =>
    obtain ⟨κ, pc⟩ := c
    rw [hc] at h2
    cases h2
    rcases h _ s hr h1 1 κ _ hc with ⟨ok, h⟩ | ⟨s', h⟩
    · cases h
    · rw [h3] at h; cases h

/-- Such a Stop waits for ever unless Stop is called once more: no other calls let it return. -/
theorem C116_forever {P : Conc.Params} {s s' : State} {i k : Nat} {as : List Act} (h : Reach P s)
    (hw : s.calls[i]? = some (.stop, .wait (some k))) (ho : s.shared.fields.downs[k]? = some false)
    (hs : ∀ c ∈ s.calls, isStop c = true → stopClosed c = true) (ha : ∀ a ∈ as, a ≠ .call .stop)
    (hx : s.execs P as = some s') : s'.calls[i]? = some (.stop, .wait (some k)) :=
  (Stuck.execs ⟨hw, ho, hs⟩ (count h) ha hx).waits

/-- The conditions hold in the state of `C116_false`. -/
example : ran sampleController waiting (fun s => (s.calls.map Prod.snd) == [.returned true, .wait (some 1), .lower] &&
    s.shared.fields.downs[1]? == some false &&
    s.calls.all (fun c => !isStop c || stopClosed c)) = true := by decide +kernel

/-- C116 as far as it holds: of a Node every call can go on until it returns, whoever makes the calls; of a Controller, too,
when the calls do not overlap. -/
theorem C116_partial {P : Conc.Params} {s : State} (h : Reach P s) (hs : P.controller = false ∨ Serial P s)
    (hcr : s.crashed = none) {i : Nat} {κ : Kind} {pc : Pc} (hi : s.calls[i]? = some (κ, pc)) (ok : Bool) :
    (∃ b, pc = .returned b) ∨ ∃ s', s.exec P (.go i ok) = some s' := by
  have hmem := List.mem_of_getElem? hi
  by_cases hr : ∃ b, pc = .returned b
  · exact .inl hr
  · right
    have hw : ∀ k, pc = .wait k → ∃ j, k = some j ∧ s.shared.fields.downs[j]? = some true := by
      rintro k rfl
      rcases hs with hs | hs
      · have := (faults h).ctrl _ hmem rfl
        rw [hs] at this
        cases this
      · exact serial_wait hs hcr hi
    obtain ⟨r, hr⟩ := step_go (P := P) (i := i) ok ((count h).fit _ hmem) hw (fun b hb => hr ⟨b, hb⟩)
    exact exec_of_step hcr hi hr

/-- A call that does not have to wait returns, or panics, after at most fifteen statements of its own. -/
theorem C116_returns {P : Conc.Params} {s : State} (h : Reach P s) (hs : P.controller = false ∨ Serial P s)
    (hcr : s.crashed = none) {i : Nat} {κ : Kind} {pc : Pc} (hi : s.calls[i]? = some (κ, pc)) (ok : Bool) :
    ∃ n s', n ≤ 15 ∧ s.execs P (List.replicate n (.go i ok)) = some s' ∧
      (s'.crashed.isSome = true ∨ ∃ b, s'.calls[i]? = some (κ, .returned b)) := by
  have aux : ∀ (m : Nat) (s : State) (pc : Pc), rank pc ≤ m → Reach P s → (P.controller = false ∨ Serial P s) →
      s.crashed = none → s.calls[i]? = some (κ, pc) → ∃ n s', n ≤ m ∧ s.execs P (List.replicate n (.go i ok)) = some s' ∧
      (s'.crashed.isSome = true ∨ ∃ b, s'.calls[i]? = some (κ, .returned b)) := by
    intro m
    induction m with
    | zero =>
      intro s pc hm h hs hcr hi
      refine ⟨0, s, Nat.le_refl _, rfl, .inr ?_⟩
      cases pc <;> first | exact ⟨_, hi⟩ | exact absurd hm (by simp [rank])
    | succ m ih =>
      intro s pc hm h hs hcr hi
      rcases C116_partial h hs hcr hi ok with ⟨b, rfl⟩ | ⟨t, ht⟩
      · exact ⟨0, s, Nat.zero_le _, rfl, .inr ⟨b, hi⟩⟩
      · have hr' : Reach P t := by
          exact reach_exec h ht
        have hs' : P.controller = false ∨ Serial P t := hs.imp_right fun hs => .step hs ht nofun
        obtain ⟨_, κ', pc', hi', hy⟩ := exec_go ht
        rw [hi] at hi'
        cases hi'
        rcases hy with ⟨f, hz, rfl⟩ | ⟨sh, pc'', hz, rfl⟩
        · exact ⟨1, { s with crashed := some f }, by omega, by simp only [List.replicate, State.execs, ht], .inl rfl⟩
        · have hlt := rank_step hz
          obtain ⟨n, s', hn, hx, hf⟩ := ih _ pc'' (by omega) hr' hs' hcr
            (List.getElem?_set_self (List.getElem?_eq_some_iff.mp hi).1)
          exact ⟨n + 1, s', by omega, by simp only [List.replicate, State.execs, ht, hx], hf⟩
  exact aux 15 s pc (by cases pc <;> simp [rank]) h hs hcr hi

/-- Stop of a Controller after Start takes ten statements. -/
example : ran sampleController ([.call .start] ++ on 0 14 ++ [.call .stop] ++ on 1 10)
    (fun s => allReturned s && s.crashed.isNone && s.shared.fields.cdowns == [true]) = true := by decide +kernel

/-! ### C117 -/

/-- C117 as stated: the map of callbacks is changed only while the node is stopped, and not by two goroutines at once. -/
def C117_statement : Prop := ∀ (P : Conc.Params) (s : State), Reach P s → s.crashed = none →
  ∀ (i : Nat) (κ : Kind), s.calls[i]? = some (κ, .write) → s.shared.fields.shutdown = true ∧
    ∀ (j : Nat) (κ' : Kind), s.calls[j]? = some (κ', .write) → j = i

/-- RegisterCallback reads the flag, Start begins a session, and RegisterCallback writes the map while the loops read it. -/
def late : List Act := [.call (.register OpCode.opDMX (.user 1))] ++ on 0 1 ++ [.call .start] ++ on 1 10

theorem C117_false : ¬ C117_statement := by
  intro h
  have hw : ran sampleNode late (fun s => s.crashed.isNone && (s.calls.map Prod.snd) == [.write, .returned true] &&
      !s.shared.fields.shutdown && s.shared.loops == 1) = true := by decide +kernel
  obtain ⟨s, _, hr, hs⟩ := ran_reach hw
  simp only [Bool.and_eq_true, beq_iff_eq, Option.isNone_iff_eq_none, Bool.not_eq_true'] at hs
  obtain ⟨⟨⟨h1, h2⟩, h3⟩, _⟩ := hs
  cases hc : s.calls with
  | nil => rw [hc] at h2; cases h2
  | cons c cs =>
    obtain ⟨κ, pc⟩ := c
    rw [hc] at h2
    have hp : pc = .write := (List.cons.inj h2).1
    subst hp
    have := (h _ s hr h1 0 κ (by rw [hc]; rfl)).1
    rw [h3] at this
    cases this

/-- Two goroutines that register callbacks write the map at the same time. -/
theorem C117_race : ∃ s, Reach sampleNode s ∧ s.crashed = none ∧ s.calls.map Prod.snd = [.write, .write] := by
  have hw : ran sampleNode ([.call (.register OpCode.opDMX (.user 1)), .call (.register OpCode.opSync (.user 2))] ++ on 0 1 ++ on 1 1)
      (fun s => s.crashed.isNone && (s.calls.map Prod.snd) == [.write, .write]) = true := by decide +kernel
  obtain ⟨s, _, hr, hs⟩ := ran_reach hw
  simp only [Bool.and_eq_true, beq_iff_eq, Option.isNone_iff_eq_none] at hs
  exact ⟨s, hr, hs.1, hs.2⟩

/-- C117 as far as it holds: when the calls do not overlap, the map is written by one call, while the node is stopped. -/
theorem C117_partial {P : Conc.Params} {s : State} (h : Serial P s) (hcr : s.crashed = none) {i : Nat} {κ : Kind}
    (hi : s.calls[i]? = some (κ, .write)) : s.shared.fields.shutdown = true ∧
      ∀ j κ' pc, j ≠ i → s.calls[j]? = some (κ', pc) → ∃ ok, pc = .returned ok := by
  have hv := inv h
  simp only [Callers.Inv, hcr] at hv
  obtain ⟨sys, hr, hsc, ih⟩ := hv
  rcases ih with ⟨hq, _⟩ | ⟨i', κ', pc', hi', hothers, hm⟩
  · obtain ⟨b, hb⟩ := quiet_at hq hi
    cases hb
  · have he : i = i' := by
      apply Classical.byContradiction
      intro hne
      obtain ⟨b, hb⟩ := hothers i _ hne hi
      cases hb
    subst he
    rw [hi] at hi'
    cases hi'
    obtain ⟨_, _, _, hs, _, hf⟩ := hm
    exact ⟨by rw [hf]; exact hs, fun j κ' pc hj hjc => hothers j _ hj hjc⟩

/-- A registration before Start. -/
example : ran sampleNode ([.call (.register OpCode.opDMX (.user 1))] ++ on 0 2 ++ [.call .start] ++ on 1 10)
    (fun s => s.crashed.isNone && allReturned s && s.shared.fields.callbacks.get OpCode.opDMX == some (.user 1)) = true := by
  decide +kernel

end Verif.Props
