import Verif.Spec.Route
import Verif.Props.Linear
import Verif.Lemmas.Buffers
/-
C129: a universe is routed by the last event that concerns it.
-/
namespace Verif.Props
open Conc Packet Code Artnet Spec

/-- What does not concern a universe does not change its route. -/
theorem route_kept {c : Ctrl} (hi : Inv c) {a : Address} {o : Op} (ho : c.CanDo o) (h : ¬ Concerns c a o) :
    (c.step o).1.output.get a = c.output.get a := by
  cases o with
  | restart => exact absurd trivial h
  | send d x => exact congrArg (·.get a) (C52_send_is_local c d x).2.2.1
  | tick order now => exact congrArg (·.get a) (tick_spec hi (now := now) ho).output
  | gc clock =>
    refine (gcNode_spec c clock hi.nodup).1.2.2.2.2.2.2.2.1 a ?_
    intro r hr hn ha
    exact h ⟨r, hr, hn, ha⟩
  | reply p now =>
    show (c.pollReply p now).output.get a = _
    rw [pollReply_eq]
    split
    · rename_i ht
      have h2 : a ∉ (configFromArtPollReply p).outputs := fun ha => h ⟨ht, .inl ha⟩
      rcases updateNode_cases c (configFromArtPollReply p) now with ⟨s, hk, e⟩ | ⟨hk, e⟩
      · obtain ⟨hs, hip⟩ := known_some hk
        rw [e]
        show (setAll (delAll _ _) _ _).get a = _
        rw [setAll_get, if_neg h2, delAll_get, if_neg]
        intro ha
        exact h ⟨ht, .inr ⟨s, hs, by rw [← config_ip]; exact hip, ha⟩⟩
      · rw [e]
        show (setAll _ _ _).get a = _
        rw [setAll_get, if_neg h2]
    · rfl

/-- After an event that concerns a universe it is routed only if the event is a reply that claims it. -/
theorem route_changed {c : Ctrl} (hi : Inv c) {a : Address} {o : Op} (h : Concerns c a o) {r : Ref}
    (hr : Routed (c.step o).1 a r) :
    ∃ p t, o = .reply p t ∧ Tracked p ∧ a ∈ (configFromArtPollReply p).outputs ∧
      ipOf (c.step o).1 r = p.ipAddress.val := by
  cases o with
  | restart => cases hr
  | send d x => exact absurd h id
  | tick order now => exact absurd h id
  | gc clock =>
    obtain ⟨s, h1, h2, h3⟩ := h
    have := (gcNode_spec c clock hi.nodup).1.2.2.2.2.2.1 s h1 h2 a h3
    have hr : (c.gcNode clock).output.get a = some r := hr
    rw [this] at hr
    cases hr
  | reply p now =>
    obtain ⟨ht, hc⟩ := h
    by_cases ha : a ∈ (configFromArtPollReply p).outputs
    · refine ⟨p, now, rfl, ht, ha, ?_⟩
      obtain ⟨s, _, h2, _, h4, _⟩ := reply_entry hi p now ht
      have hr : (c.pollReply p now).output.get a = some r := hr
      rw [h4 a ha] at hr
      have e : s = r := Option.some.inj hr
      subst e
      show ((c.pollReply p now).heap s).node.ip = _
      rw [h2, config_ip]
    · exfalso
      obtain ⟨s, hs, hip, hcl⟩ := hc.resolve_left ha
      have hr : (c.pollReply p now).output.get a = some r := hr
      rw [pollReply_eq, if_pos ht] at hr
      rcases updateNode_cases c (configFromArtPollReply p) now with ⟨s', hk, e⟩ | ⟨hk, e⟩
      · obtain ⟨hs', hip'⟩ := known_some hk
        have : s = s' := hi.ips s hs s' hs' (by rw [hip', config_ip]; exact hip)
        subst this
        rw [e] at hr
        have hr : (setAll (delAll _ _) _ _).get a = some r := hr
        rw [setAll_get, if_neg ha, delAll_get, if_pos hcl] at hr
        cases hr
      · exact known_none hk s hs (by rw [config_ip]; exact hip)

/-- Objects are not given back. -/
theorem next_grows {c : Ctrl} (hi : Inv c) (o : Op) (ho : c.CanDo o) : c.next ≤ (c.step o).1.next := by
  cases o with
  | restart => exact Nat.le_refl _
  | send d x =>
    show c.next ≤ (c.sendDMX d x).next
    rw [(sendDMX_frame c d x).1]
    exact Nat.le_refl _
  | tick order now => exact Nat.le_of_eq (tick_spec hi (now := now) ho).next.symm
  | gc clock => exact Nat.le_of_eq (gcNode_spec c clock hi.nodup).1.2.1.symm
  | reply p now =>
    show c.next ≤ (c.pollReply p now).next
    rw [pollReply_eq]
    split
    · rcases updateNode_cases c (configFromArtPollReply p) now with ⟨s, _, e⟩ | ⟨_, e⟩
      · rw [e]; exact Nat.le_refl _
      · rw [e]; exact Nat.le_succ _
    · exact Nat.le_refl _

/-- A node keeps its IP address. -/
theorem ip_run {c : Ctrl} (hi : Inv c) (os : List Op) (ho : c.CanRun os) {r : Ref} (hr : r < c.next) :
    r < (c.run os).1.next ∧ ipOf (c.run os).1 r = ipOf c r := by
  induction os generalizing c with
  | nil => exact ⟨hr, rfl⟩
  | cons o os ih =>
    have hn : c.next ≤ (c.step o).1.next := next_grows hi o ho.1
    have hr' : r < (c.step o).1.next := Nat.lt_of_lt_of_le hr hn
    obtain ⟨h1, h2⟩ := ih (hi.step o ho.1) ho.2 hr'
    refine ⟨h1, ?_⟩
    rw [show ipOf (c.run (o :: os)).1 r = ipOf ((c.step o).1.run os).1 r from rfl, h2]
    rcases node_step hi o ho.1 hr' with ⟨_, h3⟩ | ⟨p, _, _, _, h3, h4⟩
    · exact congrArg (·.ip) h3
    · rcases h4 with ⟨_, h4⟩ | h4
      · show ((c.step o).1.heap r).node.ip = (c.heap r).node.ip
        rw [h3, h4]
      · exact absurd hr (by rw [h4]; exact Nat.lt_irrefl _)

theorem unconcerned_kept {c : Ctrl} (hi : Inv c) (os : List Op) (ho : c.CanRun os) {a : Address}
    (h : Unconcerned c a os) : (c.run os).1.output.get a = c.output.get a := by
  induction os generalizing c with
  | nil => rfl
  | cons o os ih =>
    rw [show (c.run (o :: os)).1 = ((c.step o).1.run os).1 from rfl, ih (hi.step o ho.1) ho.2 h.2,
      route_kept hi ho.1 h.1]

theorem unconcerned_snoc {c : Ctrl} {a : Address} (os : List Op) (o : Op) (h : Unconcerned c a os)
    (h1 : ¬ Concerns (c.run os).1 a o) : Unconcerned c a (os ++ [o]) := by
  induction os generalizing c with
  | nil => exact ⟨h1, trivial⟩
  | cons x os ih => exact ⟨h.1, ih h.2 h1⟩

/-- C129: a universe is routed to a known node exactly if the last event that concerns the universe is a tracked reply
that claims it and contains the address of the node. -/
theorem C129_last_event (m : Int) (os : List Op) (h : (Ctrl.init m).CanRun os) (a : Address) (r : Ref) :
    Routed ((Ctrl.init m).run os).1 a r ↔
    r ∈ ((Ctrl.init m).run os).1.nodes ∧
    ∃ pre p t post, os = pre ++ .reply p t :: post ∧ Tracked p ∧ a ∈ (configFromArtPollReply p).outputs ∧
      Unconcerned ((Ctrl.init m).run (pre ++ [.reply p t])).1 a post ∧
      ipOf ((Ctrl.init m).run os).1 r = p.ipAddress.val := by
  constructor
  · intro hr
    refine ⟨(((inv_init m).run os h).out a r hr).1, ?_⟩
    obtain ⟨n, hn⟩ : ∃ n, os.length = n := ⟨_, rfl⟩
    induction n generalizing os with
    | zero =>
      rw [List.length_eq_zero_iff.mp hn] at hr
      cases hr
    | succ n ih =>
      obtain ⟨os, o, rfl⟩ : ∃ os' o, os = os' ++ [o] := by
        rcases List.eq_nil_or_concat os with rfl | ⟨l, x, e⟩
        · cases hn
        · exact ⟨l, x, by rw [e, List.concat_eq_append]⟩
      obtain ⟨h1, h2⟩ := (canRun_append _ _ _).mp h
      have hi := (inv_init m).run os h1
      have hrun : ((Ctrl.init m).run (os ++ [o])).1 = (((Ctrl.init m).run os).1.step o).1 := (run_append _ _ _).1
      rw [hrun] at hr ⊢
      by_cases hc : Concerns ((Ctrl.init m).run os).1 a o
      · obtain ⟨p, t, rfl, hp, ha, hip⟩ := route_changed hi hc hr
        exact ⟨os, p, t, [], rfl, hp, ha, trivial, hip⟩
      · have hr0 : Routed ((Ctrl.init m).run os).1 a r := by
          unfold Routed at hr ⊢
          rw [← route_kept hi h2.1 hc]
          exact hr
        obtain ⟨pre, p, t, post, e, hp, ha, hu, hip⟩ := ih os h1 hr0 (by
          rw [List.length_append] at hn; exact Nat.succ.inj hn)
        have hlt : r < ((Ctrl.init m).run os).1.next := hi.lt_next r (hi.out a r hr0).1
        refine ⟨pre, p, t, post ++ [o], by rw [e]; simp, hp, ha, unconcerned_snoc post o hu ?_, ?_⟩
        · rw [← (run_append _ _ _).1, show pre ++ [Op.reply p t] ++ post = os from by rw [e]; simp]
          exact hc
        · rw [← hip]
          exact (ip_run hi [o] h2 hlt).2
  · rintro ⟨hm, pre, p, t, post, rfl, hp, ha, hu, hip⟩
    have hi := (inv_init m).run _ h
    rw [show pre ++ Op.reply p t :: post = (pre ++ [.reply p t]) ++ post from by simp] at h hi hm hip ⊢
    obtain ⟨h1, h2⟩ := (canRun_append _ _ _).mp h
    have hi1 := (inv_init m).run _ h1
    rw [(run_append _ _ _).1] at hi hm hip ⊢
    have hrun : ((Ctrl.init m).run (pre ++ [.reply p t])).1 = (((Ctrl.init m).run pre).1.pollReply p t) :=
      (run_append _ _ _).1
    obtain ⟨s, hs, h3, _, h4, _⟩ := reply_entry ((inv_init m).run pre ((canRun_append _ _ _).mp h1).1) p t hp
    rw [← hrun] at hs h3 h4
    have hk := unconcerned_kept hi1 post h2 hu
    rw [h4 a ha] at hk
    have hsm := (hi.out a s hk).1
    have hsip : ipOf ((Ctrl.init m).run (pre ++ [.reply p t])).1 s = p.ipAddress.val := by
      show (((Ctrl.init m).run (pre ++ [.reply p t])).1.heap s).node.ip = _
      rw [h3, config_ip]
    have := (ip_run hi1 post h2 (hi1.lt_next s hs)).2
    have hrs : r = s := hi.ips r hm s hsm (by
      show ipOf _ r = ipOf _ s
      rw [hip, this, hsip])
    rw [hrs]
    exact hk

/-- C129: whatever happened before, a reply puts the universes it claims in order until the next event that concerns
them. -/
theorem C129_heals (m : Int) (pre post : List Op) (p : ArtPollReply) (t : Int) (hp : Tracked p)
    (h : (Ctrl.init m).CanRun (pre ++ .reply p t :: post)) (a : Address) (ha : a ∈ (configFromArtPollReply p).outputs)
    (hu : Unconcerned ((Ctrl.init m).run (pre ++ [.reply p t])).1 a post) :
    ∃ r, Routed ((Ctrl.init m).run (pre ++ .reply p t :: post)).1 a r ∧
      ipOf ((Ctrl.init m).run (pre ++ .reply p t :: post)).1 r = p.ipAddress.val := by
  rw [show pre ++ Op.reply p t :: post = (pre ++ [.reply p t]) ++ post from by simp] at h ⊢
  obtain ⟨h1, h2⟩ := (canRun_append _ _ _).mp h
  have hi1 := (inv_init m).run _ h1
  rw [(run_append _ _ _).1]
  have hrun : ((Ctrl.init m).run (pre ++ [.reply p t])).1 = (((Ctrl.init m).run pre).1.pollReply p t) :=
    (run_append _ _ _).1
  obtain ⟨s, hs, h3, _, h4, _⟩ := reply_entry ((inv_init m).run pre ((canRun_append _ _ _).mp h1).1) p t hp
  rw [← hrun] at hs h3 h4
  refine ⟨s, ?_, ?_⟩
  · unfold Routed
    rw [unconcerned_kept hi1 post h2 hu]
    exact h4 a ha
  · rw [(ip_run hi1 post h2 (hi1.lt_next s hs)).2]
    show (((Ctrl.init m).run (pre ++ [.reply p t])).1.heap s).node.ip = _
    rw [h3, config_ip]

/-- Two nodes claim the same universe; the one that announced it last has it, and a call does not concern it. -/
example : (Ctrl.init 40).CanRun ([.reply (replyOf ipB 1) 0, .reply (replyOf ipA 1) 5] ++ [.send fullOn ⟨0, 1⟩]) ∧
    Tracked (replyOf ipA 1) ∧ (⟨0, 1⟩ : Address) ∈ (configFromArtPollReply (replyOf ipA 1)).outputs ∧
    Unconcerned ((Ctrl.init 40).run [.reply (replyOf ipB 1) 0, .reply (replyOf ipA 1) 5]).1 ⟨0, 1⟩
      [.send fullOn ⟨0, 1⟩] :=
  ⟨⟨trivial, trivial, trivial, trivial⟩, replyOf_tracked _ _, by rw [replyOf_outputs]; simp, id, trivial⟩

/-- A node that does not claim the universe does not concern it. -/
example : ¬ Concerns ((Ctrl.init 40).run [.reply (replyOf ipB 1) 0]).1 ⟨0, 1⟩ (.reply (replyOf ipA 2) 5) ∧
    Concerns ((Ctrl.init 40).run [.reply (replyOf ipB 1) 0]).1 ⟨0, 1⟩ (.reply (replyOf ipB 2) 5) := by
  have h1 : (configFromArtPollReply (replyOf ipB 1)).outputs = [⟨0, 1⟩] := replyOf_outputs _ _
  have hn : ((Ctrl.init 40).run [.reply (replyOf ipB 1) 0]).1.nodes = [0] := by decide +kernel
  have h0 : ipOf ((Ctrl.init 40).run [.reply (replyOf ipB 1) 0]).1 0 = ipB.val := by decide +kernel
  have ho : (((Ctrl.init 40).run [.reply (replyOf ipB 1) 0]).1.heap 0).node.outputs = [⟨0, 1⟩] := by decide +kernel
  constructor
  · rintro ⟨_, h | ⟨r, hr, hip, _⟩⟩
    · rw [replyOf_outputs] at h
      revert h; decide
    · rw [hn, List.mem_singleton] at hr
      subst hr
      rw [h0] at hip
      revert hip; decide
  · exact ⟨replyOf_tracked _ _, .inr ⟨0, by rw [hn]; exact List.mem_singleton.mpr rfl, h0, by rw [ho]; simp⟩⟩

end Verif.Props
