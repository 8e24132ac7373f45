import Verif.Spec.Sessions
import Verif.Lemmas.Callers
/-
How many sessions have been begun.
-/
namespace Verif.Callers
open Packet Code Artnet Conc

/-- Start has begun the loops of the node and has not returned an error. -/
def up : Kind × Pc → Bool
  | (.start, .tick) | (.start, .beginC) | (.start, .result) | (.start, .returned true) => true
  | _ => false

/-- Start has begun the loops of the controller and has not returned an error. -/
def upC : Kind × Pc → Bool
  | (.start, .result) | (.start, .returned true) => true
  | _ => false

theorem up_step {P : Params} {sh sh' : Shared} {i : Nat} {κ : Kind} {ok : Bool} {pc pc' : Pc} (hf : fits κ pc = true)
    (hn : ctrlOnly pc = true → P.controller = true)
    (h : step P i κ ok sh pc = some (.ok (sh', pc'))) :
    ((sh'.loops + (up (κ, pc)).toNat = sh.loops + (up (κ, pc')).toNat ∧
      (P.controller = true → sh'.cloops + (upC (κ, pc)).toNat = sh.cloops + (upC (κ, pc')).toNat)) ∨
      (sh.fields.err = true ∧ P.controller = true ∧ up (κ, pc') = false ∧ upC (κ, pc') = false ∧
        sh'.loops = sh.loops ∧ sh'.cloops = sh.cloops)) ∧
    (P.controller = false → sh'.cloops = sh.cloops) ∧
    (sh.fields.err = true → sh'.fields.err = true) ∧ (sh'.fields.err = true → sh.fields.err = true ∨ pc = .fail) ∧
    (pc' = .fail → ok = false) := by
  cases pc with
  | makeCDown | makeSend | makeRecv | makePoll | makeReply | makeDown | lower | plug | raise | loadWait
  | loadC | load | check =>
    cases κ <;> first | cases hf | skip
    all_goals cases h
    all_goals refine ⟨.inl ⟨?_, fun _ => ?_⟩, fun _ => rfl, id, .inl, by intro hp; first | (cases hp; done) | (split at hp <;> cases hp)⟩
    all_goals first | rfl | (dsimp only; split <;> rfl)
  | fail =>
    cases κ <;> first | cases hf | skip
    cases h
    refine ⟨.inl ⟨rfl, fun _ => rfl⟩, fun _ => rfl, fun _ => rfl, fun _ => .inr rfl, nofun⟩
  | tick =>
    cases κ <;> first | cases hf | skip
    cases h
    exact ⟨.inl ⟨rfl, fun _ => rfl⟩, fun _ => rfl, id, .inl, nofun⟩
  | beginC =>
    cases κ <;> first | cases hf | skip
    cases h
    refine ⟨.inl ⟨rfl, fun _ => rfl⟩, fun hc => ?_, id, .inl, nofun⟩
    rw [hn rfl] at hc; cases hc
  | result =>
    cases κ <;> first | cases hf | skip
    cases h
    cases he : sh.fields.err with
    | false => exact ⟨.inl ⟨rfl, fun _ => rfl⟩, fun _ => rfl, nofun, nofun, nofun⟩
    | true => exact ⟨.inr ⟨rfl, hn rfl, rfl, rfl, rfl, rfl⟩, fun _ => rfl, fun _ => rfl, fun _ => .inl rfl, nofun⟩
  | begin =>
    cases κ <;> first | cases hf | skip
    cases h
    refine ⟨.inl ⟨?_, fun _ => ?_⟩, fun _ => rfl, id, .inl, by intro hp; split at hp <;> cases hp⟩
    · dsimp only; split <;> rfl
    · dsimp only; rw [if_pos ‹_›]; rfl
  | validate =>
    cases κ <;> first | cases hf | skip
    simp only [step, bind, Except.bind] at h
    split at h
    · cases h
    · rename_i r hr
      cases r <;> cases h <;> exact ⟨.inl ⟨rfl, fun _ => rfl⟩, fun _ => rfl, id, .inl, nofun⟩
  | listen =>
    cases κ <;> first | cases hf | skip
    simp only [step] at h
    split at h <;> cases h
    · exact ⟨.inl ⟨rfl, fun _ => rfl⟩, fun _ => rfl, id, .inl, nofun⟩
    · rename_i ho
      exact ⟨.inl ⟨rfl, fun _ => rfl⟩, fun _ => rfl, id, .inl, fun _ => by simpa using ho⟩
  | halt =>
    cases κ <;> first | cases hf | skip
    simp only [step] at h
    split at h <;> cases h <;> exact ⟨.inl ⟨rfl, fun _ => rfl⟩, fun _ => rfl, id, .inl, nofun⟩
  | close k =>
    cases κ <;> first | cases hf | skip
    simp only [step, bind, Except.bind] at h
    split at h
    · cases h
    · cases h; exact ⟨.inl ⟨rfl, fun _ => rfl⟩, fun _ => rfl, id, .inl, nofun⟩
  | closeC k =>
    cases κ <;> first | cases hf | skip
    simp only [step, bind, Except.bind] at h
    split at h
    · cases h
    · cases h; exact ⟨.inl ⟨rfl, fun _ => rfl⟩, fun _ => rfl, id, .inl, nofun⟩
  | test =>
    cases κ <;> first | cases hf | skip
    cases h
    refine ⟨.inl ⟨?_, fun _ => ?_⟩, fun _ => rfl, id, .inl, by intro hp; split at hp <;> (try split at hp) <;> cases hp⟩ <;> rfl
  | unplug =>
    cases κ <;> first | cases hf | skip
    simp only [step] at h
    split at h <;> cases h
    refine ⟨.inl ⟨?_, fun _ => ?_⟩, fun _ => rfl, id, .inl, by intro hp; split at hp <;> (try split at hp) <;> cases hp⟩ <;> rfl
  | wait k =>
    cases κ <;> first | cases hf | skip
    cases k with
    | none => cases h
    | some k =>
      simp only [step] at h
      split at h <;> cases h
      exact ⟨.inl ⟨rfl, fun _ => rfl⟩, fun _ => rfl, id, .inl, nofun⟩
  | write =>
    cases κ <;> first | cases hf | skip
    all_goals cases h
    all_goals exact ⟨.inl ⟨rfl, fun _ => rfl⟩, fun _ => rfl, id, .inl, nofun⟩
  | returned b => cases h

/-- Sessions and successes. -/
structure Up (P : Params) (s : State) : Prop where
  most : s.calls.countP up ≤ s.shared.loops
  mostC : P.controller = true → s.calls.countP upC ≤ s.shared.cloops
  node : P.controller = false → s.shared.loops = s.calls.countP up ∧ s.shared.cloops = 0
  clean : s.shared.fields.err = false → s.shared.loops = s.calls.countP up ∧
    (P.controller = true → s.shared.cloops = s.calls.countP upC)

theorem Up.init (P : Params) : Up P State.init :=
  ⟨Nat.le_refl _, fun _ => Nat.le_refl _, fun _ => ⟨rfl, rfl⟩, fun _ => ⟨rfl, fun _ => rfl⟩⟩

theorem Up.exec {P : Params} {s s' : State} {a : Act} (hr : Reach P s) (h : Up P s) (hx : s.exec P a = some s') : Up P s' := by
  cases a with
  | call κ =>
    obtain ⟨_, rfl⟩ := exec_call hx
    have e : ∀ p : Kind × Pc → Bool, p (κ, κ.first P) = false → (s.calls ++ [(κ, κ.first P)]).countP p = s.calls.countP p := by
      intro p hp
      simp [List.countP_append, hp]
    have e1 := e up (by cases κ <;> simp only [Kind.first] <;> first | rfl | (split <;> rfl))
    have e2 := e upC (by cases κ <;> simp only [Kind.first] <;> first | rfl | (split <;> rfl))
    refine ⟨?_, ?_, ?_, ?_⟩ <;> dsimp only <;> try rw [e1]
    · exact h.most
    · rw [e2]; exact h.mostC
    · exact h.node
    · rw [e2]; exact h.clean
  | go i ok =>
    obtain ⟨_, κ, pc, hi, hy⟩ := exec_go hx
    rcases hy with ⟨f, hz, rfl⟩ | ⟨sh, pc', hz, rfl⟩
    · exact ⟨h.most, h.mostC, h.node, h.clean⟩
    · have hmem := List.mem_of_getElem? hi
      have hs := up_step (κ := κ) (pc := pc) ((count hr).fit _ hmem) ((faults hr).ctrl _ hmem) hz
      obtain ⟨hl, hn, he, _⟩ := hs
      have e1 := countP_set_eq (p := up) (b := (κ, pc')) hi
      have e2 := countP_set_eq (p := upC) (b := (κ, pc')) hi
      obtain ⟨h1, h2, h3, h4⟩ := h
      rcases hl with ⟨l1, l2⟩ | ⟨l1, l2, l3, l4, l5, l6⟩
      · refine ⟨?_, fun hc => ?_, fun hc => ?_, fun hc => ?_⟩ <;> dsimp only
        · omega
        · have := l2 hc; have := h2 hc; omega
        · have := h3 hc; have := hn hc; omega
        · have hc' : s.shared.fields.err = false := by
            cases hb : s.shared.fields.err with
            | false => rfl
            | true => have := he hb; dsimp only at hc; rw [hc] at this; cases this
          have := h4 hc'
          refine ⟨by omega, fun hp => ?_⟩
          have := this.2 hp
          have := l2 hp
          omega
      · rw [l3] at e1
        rw [l4] at e2
        simp only [Bool.toNat_false, Nat.add_zero] at e1 e2
        refine ⟨?_, fun hc => ?_, fun hc => ?_, fun hc => ?_⟩ <;> dsimp only
        · omega
        · have := h2 hc; omega
        · rw [l2] at hc; cases hc
        · have := he l1; dsimp only at hc; rw [hc] at this; cases this

theorem up_reach {P : Params} {s : State} (h : Reach P s) : Up P s := by
  refine (reach_ind (p := fun s => Reach P s ∧ Up P s) ⟨⟨[], rfl⟩, Up.init P⟩ (fun _ _ _ h hx => ?_) h).2
  exact ⟨reach_exec h.1 hx, h.2.exec h.1 hx⟩

/-- No call of net.ListenPacket has failed. -/
def Clean (s : State) : Prop := s.shared.fields.err = false ∧ ∀ c ∈ s.calls, c.2 ≠ .fail

theorem Clean.exec {P : Params} {s s' : State} {a : Act} (hr : Reach P s) (h : Clean s) (hx : s.exec P a = some s')
    (ha : ∀ i, a ≠ .go i false) : Clean s' := by
  cases a with
  | call κ =>
    obtain ⟨_, rfl⟩ := exec_call hx
    refine ⟨h.1, fun c hc => ?_⟩
    rcases List.mem_append.mp hc with hc | hc
    · exact h.2 c hc
    · rw [List.mem_singleton.mp hc]
      intro hp
      cases κ <;> simp only [Kind.first] at hp <;> first | (cases hp; done) | (split at hp <;> cases hp)
  | go i ok =>
    obtain ⟨_, κ, pc, hi, hy⟩ := exec_go hx
    rcases hy with ⟨f, hz, rfl⟩ | ⟨sh, pc', hz, rfl⟩
    · exact h
    · have hmem := List.mem_of_getElem? hi
      obtain ⟨_, _, _, h1, h2⟩ := up_step (κ := κ) (pc := pc) ((count hr).fit _ hmem) ((faults hr).ctrl _ hmem) hz
      refine ⟨?_, fun c hc => ?_⟩
      · cases hb : sh.fields.err with
        | false => rfl
        | true =>
          rcases h1 hb with h1 | h1
          · rw [h.1] at h1; cases h1
          · exact absurd h1 (h.2 _ hmem)
      · rcases mem_set_cases hc with hc | rfl
        · exact h.2 c hc
        · intro hp
          cases h2 hp
          exact ha i rfl

theorem clean_execs {P : Params} {as : List Act} {s s' : State} (hr : Reach P s) (h : Clean s)
    (ha : ∀ i, Act.go i false ∉ as) (hx : s.execs P as = some s') : Clean s' := by
  induction as generalizing s with
  | nil => cases hx; exact h
  | cons a as ih =>
    simp only [State.execs] at hx
    cases hy : s.exec P a with
    | none => rw [hy] at hx; cases hx
    | some t =>
      rw [hy] at hx
      refine ih (reach_exec hr hy) (h.exec hr hy fun i hi => ?_) (fun i hi => ha i (List.mem_cons_of_mem _ hi)) hx
      subst hi
      exact ha i List.mem_cons_self

theorem up_quiet {s : State} (hq : s.quiet) (p : Kind × Pc → Bool) (h : p = up ∨ p = upC) :
    s.calls.countP p = s.calls.countP succeeded := by
  refine List.countP_congr fun c hc => ?_
  obtain ⟨b, hb⟩ := hq c hc
  obtain ⟨κ, pc⟩ := c
  cases hb
  rcases h with rfl | rfl <;> cases κ <;> cases b <;> exact Iff.rfl

end Verif.Callers
