import Verif.Props.Sessions
import Verif.Props.Config
/-
Which systems have the properties C114, C116, C117 and C141.
-/
namespace Verif.Props
open Spec Packet Code Artnet Callers

/-- Two systems that are both Controllers or both Nodes, and can both be started, do the same. -/
theorem same_calls {P Q : Conc.Params} (hc : P.controller = Q.controller) (hp : P.config.validate = .ok none)
    (hq : Q.config.validate = .ok none) (s : State) (a : Act) : s.exec P a = s.exec Q a := by
  have hs : ∀ i κ ok sh pc, step P i κ ok sh pc = step Q i κ ok sh pc := by
    intro i κ ok sh pc
    cases pc <;> simp only [step, hc, hp, hq]
  unfold State.exec
  cases a with
  | call κ => cases κ <;> simp only [Kind.first, hc]
  | go i ok => simp only [hs]

theorem same_execs {P Q : Conc.Params} (hc : P.controller = Q.controller) (hp : P.config.validate = .ok none)
    (hq : Q.config.validate = .ok none) (as : List Act) (s : State) : s.execs P as = s.execs Q as := by
  induction as generalizing s with
  | nil => rfl
  | cons a as ih => simp only [State.execs, same_calls hc hp hq, ih]

theorem same_ran {P Q : Conc.Params} {as : List Act} {f : State → Bool} (h : ran Q as f = true)
    (hc : P.controller = Q.controller) (hp : ValidConfig P.config) (hq : ValidConfig Q.config) : ran P as f = true := by
  obtain ⟨r, h1, h2⟩ := C32_validate P.config
  cases h2.mpr hp
  obtain ⟨r, h3, h4⟩ := C32_validate Q.config
  cases h4.mpr hq
  unfold ran
  rw [same_execs hc h1 h3]
  exact h

theorem sampleNode_valid : ValidConfig sampleNode.config := ⟨by decide, by decide, fun i a b ha => by cases ha⟩

theorem sampleController_valid : ValidConfig sampleController.config :=
  ⟨by decide, by decide, fun i a b ha => by cases ha⟩

example : sampleController.controller = true ∧ ValidConfig sampleController.config ∧ sampleNode.controller = false ∧
    ValidConfig sampleNode.config ∧
    ¬ ValidConfig { sampleNode.config with inputPorts := List.replicate 5 ⟨⟨0, 0⟩, 0, 0⟩ } :=
  ⟨rfl, sampleController_valid, rfl, sampleNode_valid, fun h => absurd h.1 (by decide)⟩

/-- How far a call can get when the configuration is not valid. -/
def short : Kind × Pc → Bool
  | (.start, .makeCDown) | (.start, .validate) | (.start, .returned false) | (.stop, .halt) | (.stop, .raise) | (.stop, .load)
  | (.stop, .close none) | (.register _ _, .check) | (.register _ _, .write) | (.register _ _, .returned _)
  | (.deregister _, .check) | (.deregister _, .write) | (.deregister _, .returned _) => true
  | _ => false

/-- Nothing is made when the configuration is not valid. -/
theorem unbegun {P : Conc.Params} (hv : ¬ ValidConfig P.config) {s : State} (h : Reach P s) :
    (∀ c ∈ s.calls, short c = true) ∧ s.shared.fields.shutdown = true ∧ s.shared.fields.down = none ∧
    s.shared.fields.conn = none ∧ s.shared.loops = 0 ∧ s.shared.cloops = 0 ∧ s.shared.send = none ∧
    s.shared.recv = none ∧ s.shared.poll = none ∧ s.shared.reply = none := by
  obtain ⟨r, hr, hvr⟩ := C32_validate P.config
  cases r with
  | none => exact absurd (hvr.mp rfl) hv
  | some e =>
  refine reach_ind (P := P) (p := fun s => (∀ c ∈ s.calls, short c = true) ∧ s.shared.fields.shutdown = true ∧
    s.shared.fields.down = none ∧ s.shared.fields.conn = none ∧ s.shared.loops = 0 ∧ s.shared.cloops = 0 ∧
    s.shared.send = none ∧ s.shared.recv = none ∧ s.shared.poll = none ∧ s.shared.reply = none) ?_ ?_ h
  · exact ⟨nofun, rfl, rfl, rfl, rfl, rfl, rfl, rfl, rfl, rfl⟩
  · rintro s a s' ⟨h1, h2⟩ hx
    cases a with
    | call κ =>
      obtain ⟨_, rfl⟩ := exec_call hx
      refine ⟨fun c hc => ?_, h2⟩
      rcases List.mem_append.mp hc with hc | hc
      · exact h1 c hc
      · rw [List.mem_singleton.mp hc]
        cases κ <;> simp only [Kind.first] <;> first | rfl | (split <;> rfl)
    | go i ok =>
      obtain ⟨_, κ, pc, hi, hy⟩ := exec_go hx
      have hs := h1 _ (List.mem_of_getElem? hi)
      rcases hy with ⟨f, _, rfl⟩ | ⟨sh, pc', hz, rfl⟩
      · exact ⟨h1, h2⟩
      · suffices short (κ, pc') = true ∧ sh.fields.shutdown = true ∧ sh.fields.down = none ∧
            sh.fields.conn = none ∧ sh.loops = 0 ∧ sh.cloops = 0 ∧ sh.send = none ∧
            sh.recv = none ∧ sh.poll = none ∧ sh.reply = none by
          refine ⟨fun c hc => ?_, this.2⟩
          rcases mem_set_cases hc with hc | hc
          · exact h1 c hc
          · rw [hc]; exact this.1
        obtain ⟨g1, g2, g3⟩ := h2
        cases κ <;> cases pc <;> first | (cases hs; done) | skip
        case stop.close k =>
          cases k with
          | none => cases hz
          | some k => cases hs
        case stop.halt =>
          simp only [step] at hz
          split at hz
          · cases hz; exact ⟨rfl, g1, g2, g3⟩
          · cases hz
        all_goals
          simp only [step, hr, g1, g2] at hz
          cases hz <;> first | exact ⟨rfl, g1, g2, g3⟩ | exact ⟨rfl, rfl, rfl, g3⟩ | exact ⟨rfl, rfl, g2, g3⟩

/-! ### C114 -/

/-- The execution of `tangled` for a Controller. -/
def tangledC : List Act :=
  [.call .start] ++ on 0 14 ++ [.call .stop] ++ on 1 2 ++ [.call .start] ++ on 2 8 ++ on 1 8 ++ on 2 6

/-- C114 holds of the systems that cannot be started, and of no others. -/
theorem C114_exact (P : Conc.Params) :
    (∀ s, Reach P s → s.crashed = none → s.quiet → Consistent s.shared) ↔ ¬ ValidConfig P.config := by
  refine ⟨fun h hv => ?_, fun hv s hr _ _ => ?_⟩
  · have hw : ∃ as, ran P as (fun s => s.crashed.isNone && allReturned s && !s.shared.fields.shutdown &&
        s.shared.fields.down == some 1 && s.shared.fields.downs == [false, true] &&
        s.shared.fields.conns == [false, true]) = true := by
      cases hc : P.controller with
      | false => exact ⟨tangled, same_ran (Q := sampleNode) (by decide +kernel) hc hv sampleNode_valid⟩
      | true => exact ⟨tangledC, same_ran (Q := sampleController) (by decide +kernel) hc hv sampleController_valid⟩
    obtain ⟨as, hw⟩ := hw
    obtain ⟨s, _, hr, hs⟩ := ran_reach hw
    simp only [Bool.and_eq_true, beq_iff_eq, Option.isNone_iff_eq_none, Bool.not_eq_true'] at hs
    obtain ⟨⟨⟨⟨⟨h1, h2⟩, h3⟩, h4⟩, h5⟩, _⟩ := hs
    obtain ⟨k, hk, ho⟩ := (h s hr h1 (quiet_of h2)).2.1 h3
    rw [h4] at hk
    cases hk
    rw [h5] at ho
    cases ho
  · obtain ⟨_, h1, h2, h3, _, _, h4, h5, h6, h7⟩ := unbegun hv hr
    refine ⟨fun _ => ⟨fun k hk => ?_, fun k hk => ?_⟩, fun h => ?_, ?_, ?_, ?_⟩
    · rw [h2] at hk; cases hk
    · rw [h3] at hk; cases hk
    · rw [h1] at h; cases h
    · rw [h4, h5]
    · rw [h5, h6]
    · rw [h6, h7]

/-! ### C116 -/

/-- C116 holds of Nodes and of the systems that cannot be started, and of no others. -/
theorem C116_exact (P : Conc.Params) :
    (∀ s, Reach P s → s.crashed = none → ∀ (i : Nat) (κ : Kind) (pc : Pc), s.calls[i]? = some (κ, pc) →
      (∃ ok, pc = .returned ok) ∨ ∃ s', s.exec P (.go i true) = some s') ↔
    (P.controller = false ∨ ¬ ValidConfig P.config) := by
  refine ⟨fun h => ?_, ?_⟩
  · cases hc : P.controller with
    | false => exact .inl rfl
    | true =>
      refine .inr fun hv => ?_
      have hw : ran P waiting (fun s => s.crashed.isNone && (s.calls[1]?.map Prod.snd) == some (.wait (some 1)) &&
          (s.exec sampleController (.go 1 true)).isNone) = true :=
        same_ran (Q := sampleController) (by decide +kernel) hc hv sampleController_valid
      obtain ⟨s, _, hr, hs⟩ := ran_reach hw
      simp only [Bool.and_eq_true, beq_iff_eq, Option.isNone_iff_eq_none] at hs
      obtain ⟨⟨h1, h2⟩, h3⟩ := hs
      obtain ⟨r, hp, h4⟩ := C32_validate P.config
      cases h4.mpr hv
      obtain ⟨r, hq, h5⟩ := C32_validate sampleController.config
      cases h5.mpr sampleController_valid
      rw [← same_calls hc hp hq] at h3
      cases hi : s.calls[1]? with
      | none => rw [hi] at h2; cases h2
      | some c =>
        obtain ⟨κ, pc⟩ := c
        rw [hi] at h2
        cases h2
        rcases h s hr h1 1 κ _ hi with ⟨ok, hk⟩ | ⟨s', hx⟩
        · cases hk
        · rw [h3] at hx; cases hx
  · intro hor s hr hcr i κ pc hi
    rcases hor with hc | hv
    · exact C116_partial hr (.inl hc) hcr hi true
    · have hs := (unbegun hv hr).1 _ (List.mem_of_getElem? hi)
      by_cases hret : ∃ ok, pc = .returned ok
      · exact .inl hret
      · right
        obtain ⟨r, hp, _⟩ := C32_validate P.config
        suffices ∃ y, step P i κ true s.shared pc = some y by
          obtain ⟨y, hy⟩ := this
          unfold State.exec
          simp only [hcr, hi, hy]
          cases y <;> exact ⟨_, rfl⟩
        cases κ <;> cases pc <;> first | (cases hs; done) | exact ⟨_, rfl⟩ | exact absurd ⟨_, rfl⟩ hret

/-! ### C117 -/

/-- Of no system is the map of callbacks safe: two goroutines can change it at once whatever the configuration is. -/
theorem C117_exact (P : Conc.Params) : ¬ ∀ s, Reach P s → s.crashed = none →
    ∀ (i : Nat) (κ : Kind), s.calls[i]? = some (κ, .write) → s.shared.fields.shutdown = true ∧
      ∀ (j : Nat) (κ' : Kind), s.calls[j]? = some (κ', .write) → j = i := by
  intro h
  have hx : ∃ s, State.init.execs P
      ([.call (.register OpCode.opDMX (.user 1)), .call (.register OpCode.opSync (.user 2))] ++ on 0 1 ++ on 1 1) = some s ∧
      s.crashed = none ∧ s.calls =
        [(.register OpCode.opDMX (.user 1), .write), (.register OpCode.opSync (.user 2), .write)] :=
    ⟨_, rfl, rfl, rfl⟩
  obtain ⟨s, h1, h2, h3⟩ := hx
  have := (h s ⟨_, h1⟩ h2 0 _ (by rw [h3]; rfl)).2 1 _ (by rw [h3]; rfl)
  cases this

/-- And a system that can be started has its map changed while the loops read it. -/
theorem C117_late {P : Conc.Params} (hv : ValidConfig P.config) : ∃ (s : State) (i : Nat) (κ : Kind), Reach P s ∧
    s.crashed = none ∧ s.calls[i]? = some (κ, .write) ∧ s.shared.fields.shutdown = false ∧ s.shared.loops = 1 := by
  have hw : ∃ as, ran P as (fun s => s.crashed.isNone && (s.calls.map Prod.snd) == [.write, .returned true] &&
      !s.shared.fields.shutdown && s.shared.loops == 1) = true := by
    cases hc : P.controller with
    | false => exact ⟨late, same_ran (Q := sampleNode) (by decide +kernel) hc hv sampleNode_valid⟩
    | true => exact ⟨late ++ on 1 4, same_ran (Q := sampleController) (by decide +kernel) hc hv sampleController_valid⟩
  obtain ⟨as, hw⟩ := hw
  obtain ⟨s, _, hr, hs⟩ := ran_reach hw
  simp only [Bool.and_eq_true, beq_iff_eq, Option.isNone_iff_eq_none, Bool.not_eq_true'] at hs
  obtain ⟨⟨⟨h1, h2⟩, h3⟩, h4⟩ := hs
  cases hi : s.calls[0]? with
  | none =>
    rw [List.getElem?_eq_none_iff] at hi
    have := congrArg List.length h2
    simp at this
    omega
  | some c =>
    obtain ⟨κ, pc⟩ := c
    have h5 : (s.calls.map Prod.snd)[0]? = some pc := by rw [List.getElem?_map, hi]; rfl
    rw [h2] at h5
    cases h5
    exact ⟨s, 0, κ, hr, h1, hi, h3, h4⟩

/-! ### C141 -/

/-- C141 holds of Nodes and of the systems that cannot be started, and of no others. -/
theorem C141_exact (P : Conc.Params) :
    (∀ (as : List Act) (s : State), State.init.execs P as = some s → s.quiet →
      s.shared.loops = s.calls.countP succeeded ∧ (P.controller = true → s.shared.cloops = s.calls.countP succeeded)) ↔
    (P.controller = false ∨ ¬ ValidConfig P.config) := by
  refine ⟨fun h => ?_, ?_⟩
  · cases hc : P.controller with
    | false => exact .inl rfl
    | true =>
      refine .inr fun hv => ?_
      have hw : ran P oldError (fun s => s.crashed.isNone && allReturned s && s.shared.loops == 1 &&
          s.calls.countP succeeded == 0) = true :=
        same_ran (Q := sampleController) (by decide +kernel) hc hv sampleController_valid
      obtain ⟨s, hx, _, hs⟩ := ran_reach hw
      simp only [Bool.and_eq_true, beq_iff_eq] at hs
      obtain ⟨⟨⟨_, h2⟩, h3⟩, h4⟩ := hs
      have := (h _ s hx (quiet_of h2)).1
      rw [h3, h4] at this
      cases this
  · rintro (hc | hv) as s hx hq
    · have := C141_partial hx hq (.inl hc)
      exact ⟨this.1, fun hp => by rw [hc] at hp; cases hp⟩
    · obtain ⟨_, _, _, _, h1, h2, _⟩ := unbegun hv ⟨as, hx⟩
      have := C141_sound (P := P) ⟨as, hx⟩
      rw [h1] at this ⊢
      rw [h2]
      exact ⟨by omega, fun hp => by omega⟩

end Verif.Props
