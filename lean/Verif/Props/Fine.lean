import Verif.Lemmas.Fine
import Verif.Props.Linear
/-
Critical sections in small steps: C154.
-/
namespace Verif.Props
open Spec Packet Code Artnet Conc

/-- C154: an execution in which gcNode, updateNode and SendDMXToAddress change the tables in small steps, while they hold nodeLock,
leads to where an execution leads in which each of them is one step. -/
def C154_statement : Prop :=
  ∀ (P : Params) (xs : List Small) (f : Fine), Fine.Runs P ⟨Sys.init P, none⟩ xs f → f.busy = none → Reach P f.sys

/-- The reply of a node with one output port and one input port, universe 1. -/
def replyBoth : ArtPollReply :=
  { replyOf ipA 1 with id := ⟨magic, rfl⟩, opCode := OpCode.opPollReply, port := 6454, portTypes := ⟨[0xC0, 0, 0, 0], rfl⟩, swIn := ⟨[1, 0, 0, 0], rfl⟩ }

/-- pollLoop has received the reply and is about to call updateNode. -/
def beforeUpdate : List Act :=
  sampleStart ++ sampleRead 5 ⟨ipA.val, 6454⟩ (pollReplyImage replyBoth) ++
    [.run 6 .next, .run 6 .next, .run 6 .next, .run 3 .next, .run 3 .next, .run 3 .next, .run 3 .next,
      .run 3 .next, .run 3 .next]

/-- updateNode up to the references of the output ports (controller.go:323-344). -/
def firstHalf (c : Ctrl) : Ctrl := { c.pollReply replyBoth 0 with input := c.input }

/-- The rest of updateNode (controller.go:345-347). -/
def secondHalf (c : Ctrl) : Ctrl := { c with input := setAll c.input (configFromArtPollReply replyBoth).inputs 0 }

theorem before_update : after sampleController beforeUpdate (fun s =>
    s.crashed == none && s.threads[3]? == some (.plGot replyBoth) && !s.lock && s.control == .idle && s.ctrl.nodes == [] &&
    s.ctrl.next == 0 && (match s.hist with | [.restart] => true | _ => false) && !s.chans.isEmpty && s.threads.length == 7) = true := by decide +kernel

/-- What the tables would be if Start and updateNode were each one step. -/
theorem update_after_start : ((((Ctrl.init sampleController.maxFPS).run [.restart, .restart, .reply replyBoth 0]).1.output.get ⟨0, 1⟩) == some 0) = true := by
  decide +kernel

/-- The two halves are the whole. -/
theorem halves {c : Ctrl} (h1 : c.nodes = []) (h2 : c.next = 0) :
    [firstHalf, secondHalf].foldl (fun x f => f x) c = (c.step (.reply replyBoth 0)).1 := by
  have e : (c.step (.reply replyBoth 0)).1 = c.updateNode (configFromArtPollReply replyBoth) 0 := by
    simp only [Ctrl.step, Ctrl.pollReply]
    rw [if_neg (by decide +kernel), if_neg (by decide +kernel)]
  have e1 : c.pollReply replyBoth 0 = c.updateNode (configFromArtPollReply replyBoth) 0 := e
  simp only [List.foldl_cons, List.foldl_nil, firstHalf, secondHalf, e, e1, Ctrl.updateNode, h1, h2, List.find?_nil]
  rfl

/-- updateNode has made the references of the output ports when Start makes the maps anew: the references of the input ports end up in
the new map, those of the output ports do not. -/
theorem C154_false : ¬ C154_statement := by
  intro h
  obtain ⟨s, hr, hs, hc⟩ := after_reach before_update
  simp only [Bool.and_eq_true, beq_iff_eq, Bool.not_eq_true'] at hc
  obtain ⟨⟨⟨⟨⟨⟨⟨⟨c1, c2⟩, c3⟩, c4⟩, c5⟩, c6⟩, c7⟩, c8⟩, _⟩ := hc
  obtain ⟨xs, hx, _, _⟩ := execs_small hs
  have hh : s.hist = [.restart] := by
    split at c7
    · assumption
    · cases c7
  -- Start during the section
  have hstart : ∀ y, ({ s with lock := true, ctrl := y } : Sys).exec sampleController .start =
      some ({ s with lock := true, ctrl := y } : Sys).resetTables.makeChannels := by
    intro y
    have v : sampleController.config.validate = .ok none := (life hr).valid (by intro e; rw [e] at c8; cases c8)
    have k : sampleController.controller = true := by decide +kernel
    simp only [Sys.exec, c1, c4, v, k]
    rfl
  have hop : (Thread.plGot replyBoth).op? (.at 0) = some (.reply replyBoth 0) := by
    simp only [Thread.op?]
    rw [if_neg (by decide +kernel)]
  obtain ⟨t', ht'⟩ := step_section (P := sampleController) (i := 3)
    (s := { (({ s with lock := true, ctrl := firstHalf s.ctrl } : Sys).resetTables.makeChannels) with lock := false }) rfl hop
  have hend := ht' (secondHalf (firstHalf s.ctrl).restart)
  rw [← exec_run (s := { (({ s with lock := true, ctrl := firstHalf s.ctrl } : Sys).resetTables.makeChannels) with
    lock := false, ctrl := secondHalf (firstHalf s.ctrl).restart }) c1 c2] at hend
  have hrun := hx.append (.cons (.enter c1 c3 c2 hop (halves c5 c6))
    (.cons (.work c1) (.cons (.act (a := .start) (fun _ _ e => by cases e) (hstart _)) (.cons (.work c1) (.cons (.leave hend) (.nil _))))))
  have hlin := (C73_linearizable (h _ _ _ hrun rfl)).2.2 rfl
  simp only [Sys.goto, Sys.makeChannels, Sys.resetTables, hh, List.cons_append, List.nil_append] at hlin
  have hu := update_after_start
  rw [hlin] at hu
  cases hu

/-- C154 when Start is not called while a section is going on: the state at the end of the sections is the same as if every section
had been done in one step when it unlocks. -/
theorem C154_partial {P : Params} {xs : List Small} {f : Fine} (h : Fine.Runs P ⟨Sys.init P, none⟩ xs f) (hb : f.busy = none)
    (hs : startsOutside false xs = true) : (Sys.init P).execs P (wholeActs none xs) = some f.sys := by
  obtain ⟨s', h1, h2⟩ := runs_like h ⟨.init P, fun _ => rfl, nofun⟩ hs
  rw [h1.free hb]
  exact h2

/-- Nothing else becomes visible while a section is going on: apart from the lock and the tables the state is one that can be reached
with whole sections. -/
theorem C154_during {P : Params} {xs : List Small} {f : Fine} (h : Fine.Runs P ⟨Sys.init P, none⟩ xs f)
    (hs : startsOutside false xs = true) : ∃ s, (Sys.init P).execs P (wholeActs none xs) = some s ∧
      (f.busy.isSome → s.lock = false) ∧ ({ f.sys with lock := s.lock, ctrl := s.ctrl } : Sys) = s := by
  obtain ⟨s', h1, h2⟩ := runs_like h ⟨.init P, fun _ => rfl, nofun⟩ hs
  refine ⟨s', h2, ?_, ?_⟩
  · intro hb
    cases e : f.busy with
    | none => rw [e] at hb; cases hb
    | some b => exact (h1.busy b.who b.choice b.rest e).2.1
  · cases e : f.busy with
    | none => rw [h1.free e]
    | some b =>
      have := (h1.busy b.who b.choice b.rest e).1
      rw [this]
      rfl

/-- A section that has begun can go on to its end. -/
theorem C154_ends {P : Params} {xs : List Small} {f : Fine} (h : Fine.Runs P ⟨Sys.init P, none⟩ xs f)
    (hs : startsOutside false xs = true) (hc : f.sys.crashed = none) (hb : f.busy.isSome) :
    ∃ n g, Fine.Runs P f (List.replicate n .work ++ [.leave]) g ∧ g.busy = none := by
  obtain ⟨s', h1, _⟩ := runs_like h ⟨.init P, fun _ => rfl, nofun⟩ hs
  exact section_ends h1 hc hb

/-- Every execution with whole sections is one in small steps. -/
theorem C154_whole {P : Params} {as : List Act} {s : Sys} (h : (Sys.init P).execs P as = some s) :
    ∃ xs, Fine.Runs P ⟨Sys.init P, none⟩ xs ⟨s, none⟩ ∧ startsOutside false xs = true ∧ wholeActs none xs = as := execs_small h

/-- updateNode in two halves, and between them SendDMXToAddress is called. -/
example : ∃ xs f, Fine.Runs sampleController ⟨Sys.init sampleController, none⟩ xs f ∧ startsOutside false xs = true ∧
    f.busy.isSome = true ∧ f.sys.crashed = none ∧ f.sys.lock = true ∧ f.sys.ctrl.nodes = [0] ∧ f.sys.threads.length = 8 := by
  obtain ⟨s, hr, hs, hc⟩ := after_reach before_update
  simp only [Bool.and_eq_true, beq_iff_eq, Bool.not_eq_true'] at hc
  obtain ⟨⟨⟨⟨⟨⟨⟨⟨c1, c2⟩, c3⟩, c4⟩, c5⟩, c6⟩, c7⟩, c8⟩, c9⟩ := hc
  obtain ⟨xs, hx, ho, hw⟩ := execs_small hs
  have hop : (Thread.plGot replyBoth).op? (.at 0) = some (.reply replyBoth 0) := by
    simp only [Thread.op?]
    rw [if_neg (by decide +kernel)]
  have hcall : ({ s with lock := true, ctrl := firstHalf s.ctrl } : Sys).exec sampleController (.call fullOn ⟨0, 1⟩) =
      some { s with lock := true, ctrl := firstHalf s.ctrl, threads := s.threads ++ [.caller fullOn ⟨0, 1⟩] } := by
    have k : sampleController.controller = true := by decide +kernel
    simp only [Sys.exec, c1, k]
    rfl
  have e1 : (firstHalf s.ctrl).nodes = [0] := by
    have e : s.ctrl.pollReply replyBoth 0 = s.ctrl.updateNode (configFromArtPollReply replyBoth) 0 := by
      simp only [Ctrl.pollReply]
      rw [if_neg (by decide +kernel), if_neg (by decide +kernel)]
    simp only [firstHalf, e, Ctrl.updateNode, c5, c6, List.find?_nil]
    show s.ctrl.nodes ++ [0] = [0]
    rw [c5]
    rfl
  have hr1 := hx.append (.cons (.enter c1 c3 c2 hop (halves c5 c6))
    (.cons (.work c1) (.cons (.act (a := .call fullOn ⟨0, 1⟩) (fun _ _ e => by cases e) hcall) (.nil _))))
  refine ⟨_, _, hr1, outside_append hx ho rfl, rfl, c1, rfl, e1, ?_⟩
  simp [c9]

end Verif.Props
