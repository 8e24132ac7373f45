import Verif.Props.ExactOrder
import Verif.Props.Rename
import Verif.Props.Spoof
import Verif.Props.Order
import Verif.Props.Exclusive
/-
Which systems have the properties C108, C127 and C142.
-/
namespace Verif.Props
open Spec Packet Code Artnet Conc

/-- The systems that can light a lamp: Controllers with the style StController, a valid configuration and a frame rate
for which there is a ticker. -/
def CanLight (P : Params) : Prop :=
  P.controller = true ∧ P.config.type = StyleCode.stController ∧ ValidConfig P.config ∧ 1 ≤ P.maxFPS ∧ P.maxFPS ≤ 1000000000

/-! ### The systems that cannot -/

/-- The goroutine has nothing to send to a node. -/
def unlit : Thread → Bool
  | .duTick [] [] _ => true
  | .duTick _ _ _ | .duSend _ _ _ _ _ => false
  | _ => true

theorem unlit_set {s : Sys} {i : Nat} {t : Thread} (h : ∀ u ∈ s.threads, unlit u = true) (ht : unlit t = true) :
    ∀ u ∈ (s.goto i t).threads, unlit u = true := by
  intro u hu
  rcases List.mem_or_eq_of_mem_set hu with hu | rfl
  · exact h u hu
  · exact ht

theorem goroutines_unlit (P : Params) : ∀ t ∈ P.goroutines, unlit t = true := by
  unfold Params.goroutines
  split <;> decide

/-- Where no announcement is processed, no universe is routed, and no ArtDMX is made. -/
theorem dark_tables {P : Params} (hP : P.controller = false ∨ P.config.type ≠ StyleCode.stController ∨ ¬ ValidConfig P.config)
    {s : Sys} (h : Reach P s) : s.ctrl.output = [] ∧ s.ctrl.input = [] ∧ s.ctrl.nodes = [] ∧ s.emitted = [] ∧
      ∀ t ∈ s.threads, unlit t = true := by
  refine Reach.induct (P := P) (I := fun s => s.ctrl.output = [] ∧ s.ctrl.input = [] ∧ s.ctrl.nodes = [] ∧ s.emitted = [] ∧
      ∀ t ∈ s.threads, unlit t = true) ⟨rfl, rfl, rfl, rfl, nofun⟩ ?_ h
  rintro s s' hr ⟨h1, h2, h3, h4, h5⟩ _ hst
  cases hst with
  | move ht m =>
    refine ⟨h1, h2, h3, h4, unlit_set h5 ?_⟩
    have := h5 _ (List.mem_of_getElem? ht)
    cases m <;> first | rfl | cases this
  | ignore ht => exact absurd (List.mem_of_getElem? ht) (unasked hP hr _)
  | reply ht => exact absurd (List.mem_of_getElem? ht) (unasked hP hr _)
  | tickAt ht => exact absurd (h5 _ (List.mem_of_getElem? ht)) nofun
  | pushDmx ht => exact absurd (h5 _ (List.mem_of_getElem? ht)) nofun
  | lock ht hl hp =>
    refine ⟨h1, h2, h3, h4, unlit_set (s := { s with lock := _, hist := _ }) h5 ?_⟩
    rw [h1] at hp ⊢
    rw [List.Perm.eq_nil hp]
    rfl
  | gc ht hl =>
    have he : ∀ k, s.ctrl.gcNode k = s.ctrl := by
      intro k
      unfold Ctrl.gcNode
      rw [Ctrl.gcFrom]
      split
      · rfl
      · rename_i hx
        rw [h3] at hx
        cases hx
    refine ⟨?_, ?_, ?_, h4, unlit_set (s := { s with ctrl := _, hist := _ }) h5 rfl⟩ <;> simp only [Sys.goto, he] <;> assumption
  | sendDMX ht hl =>
    have he : ∀ d a, s.ctrl.sendDMX d a = s.ctrl := by
      intro d a
      unfold Ctrl.sendDMX
      rw [h1]
      rfl
    refine ⟨?_, ?_, ?_, h4, unlit_set (s := { s with ctrl := _, hist := _ }) h5 rfl⟩ <;> simp only [Sys.goto, he] <;> assumption
  | spawnReader | spawnHandler =>
    refine ⟨h1, h2, h3, h4, fun t ht => ?_⟩
    rcases List.mem_append.mp ht with ht | ht
    · exact unlit_set h5 rfl t ht
    · rw [List.mem_singleton.mp ht]; rfl
  | spawnCaller =>
    refine ⟨h1, h2, h3, h4, fun t ht => ?_⟩
    rcases List.mem_append.mp ht with ht | ht
    · exact h5 t ht
    · rw [List.mem_singleton.mp ht]; rfl
  | call ht hh hc =>
    refine ⟨h1, h2, h3, h4, unlit_set (s := s) h5 ?_⟩
    cases hc <;> rfl
  | pushSend ht k => exact ⟨h1, h2, h3, h4, unlit_set (s := s) h5 (by cases k <;> rfl)⟩
  | listen =>
    refine ⟨h1, h2, h3, h4, fun t ht => ?_⟩
    rcases List.mem_append.mp ht with ht | ht
    · exact h5 t ht
    · exact goroutines_unlit P t ht
  | startPanic | startFail | start =>
    simp only [Sys.reset, Sys.panic, Sys.resetTables, Sys.makeChannels]
    split
    · exact ⟨rfl, rfl, h3, h4, h5⟩
    · exact ⟨h1, h2, h3, h4, h5⟩
  | panic | listenFail | stop | disconnectC | disconnect | ended | register | deregister | noRegister | close =>
    exact ⟨h1, h2, h3, h4, h5⟩
  | _ => exact ⟨h1, h2, h3, h4, unlit_set (s := s) h5 rfl⟩

/-- The goroutine is not a dmxUpdateLoop that has made its ticker. -/
def unticked : Thread → Bool
  | .duTop | .duWait _ | .duLock | .duTick _ _ _ | .duSend _ _ _ _ _ => false
  | _ => true

theorem unticked_set {s : Sys} {i : Nat} {t : Thread} (h : ∀ u ∈ s.threads, unticked u = true) (ht : unticked t = true) :
    ∀ u ∈ (s.goto i t).threads, unticked u = true := by
  intro u hu
  rcases List.mem_or_eq_of_mem_set hu with hu | rfl
  · exact h u hu
  · exact ht

/-- Where the ticker cannot be made, dmxUpdateLoop does nothing. -/
theorem dark_rate {P : Params} (hP : ¬ (1 ≤ P.maxFPS ∧ P.maxFPS ≤ 1000000000)) {s : Sys} (h : Reach P s) :
    s.emitted = [] ∧ ∀ t ∈ s.threads, unticked t = true := by
  refine Reach.induct (P := P) (I := fun s => s.emitted = [] ∧ ∀ t ∈ s.threads, unticked t = true) ⟨rfl, nofun⟩ ?_ h
  rintro s s' hr ⟨h4, h5⟩ _ hst
  cases hst with
  | move ht m =>
    refine ⟨h4, unticked_set h5 ?_⟩
    have := h5 _ (List.mem_of_getElem? ht)
    cases m <;> first | rfl | (cases this; done) | skip
    rename_i d hd
    exact absurd ((C56_partial P.maxFPS).1.mp ⟨d, hd⟩) hP
  | pushDmx ht | lock ht | unlock ht | tickAt ht => exact absurd (h5 _ (List.mem_of_getElem? ht)) nofun
  | spawnReader | spawnHandler =>
    refine ⟨h4, fun t ht => ?_⟩
    rcases List.mem_append.mp ht with ht | ht
    · exact unticked_set h5 rfl t ht
    · rw [List.mem_singleton.mp ht]; rfl
  | spawnCaller =>
    refine ⟨h4, fun t ht => ?_⟩
    rcases List.mem_append.mp ht with ht | ht
    · exact h5 t ht
    · rw [List.mem_singleton.mp ht]; rfl
  | call ht hh hc =>
    refine ⟨h4, unticked_set (s := s) h5 ?_⟩
    cases hc <;> rfl
  | pushSend ht k => exact ⟨h4, unticked_set (s := s) h5 (by cases k <;> rfl)⟩
  | listen =>
    refine ⟨h4, fun t ht => ?_⟩
    rcases List.mem_append.mp ht with ht | ht
    · exact h5 t ht
    · have : ∀ t ∈ P.goroutines, unticked t = true := by
        unfold Params.goroutines
        split <;> decide
      exact this t ht
  | startPanic | startFail | start =>
    simp only [Sys.reset, Sys.panic, Sys.resetTables, Sys.makeChannels]
    split <;> exact ⟨h4, h5⟩
  | panic | listenFail | stop | disconnectC | disconnect | ended | register | deregister | noRegister | close =>
    exact ⟨h4, h5⟩
  | _ => exact ⟨h4, unticked_set (s := s) h5 rfl⟩

theorem not_lights {P : Params} (h : ¬ CanLight P) :
    (P.controller = false ∨ P.config.type ≠ StyleCode.stController ∨ ¬ ValidConfig P.config) ∨
    ¬ (1 ≤ P.maxFPS ∧ P.maxFPS ≤ 1000000000) := by
  by_cases h1 : P.controller = true
  · by_cases h2 : P.config.type = StyleCode.stController
    · by_cases h3 : ValidConfig P.config
      · exact .inr fun h4 => h ⟨h1, h2, h3, h4⟩
      · exact .inl (.inr (.inr h3))
    · exact .inl (.inr (.inl h2))
  · exact .inl (.inl (by simpa using h1))

theorem dark_wire {P : Params} (h : ¬ CanLight P) {s : Sys} (hr : Reach P s) : s.wire.filter isDmx = [] := by
  have he : s.emitted = [] := by
    rcases not_lights h with h | h
    · exact (dark_tables h hr).2.2.2.1
    · exact (dark_rate h hr).1
  refine List.filter_eq_nil_iff.mpr fun p hp => ?_
  cases wire_sent hr p hp with
  | reply me hm hp =>
    have : isReply p = true := by rw [hp]; exact me_is_reply hm _
    simp only [isReply, isDmx, Bool.and_eq_true, beq_iff_eq] at this ⊢
    rw [this.2]
    exact fun h => absurd h.2 (by decide)
  | poll _ hp => rw [hp, poll_not_dmx]; decide
  | dmx e h' => rw [he] at h'; cases h'

/-! ### The systems that can -/

/-- The tick does with the universe what it would do at every rate. -/
def calm (b : DmxBuffer) (now : Int) : Bool := !b.stale || decide (b.lastUpdate < now - 250000000)

def calmAct (s : Sys) : Act → Bool
  | .run i _ => match s.threads[i]? with
    | some (.duTick [] ((a, r) :: _) now) => calm (bufferAt (s.ctrl.heap r) a) now
    | _ => true
  | _ => true

/-- The datagrams that are read come from `src`. -/
def readsOnly (src : Bytes) : Act → Bool
  | .run _ (.read a _) => a.ip == src
  | _ => true

/-- The state after actions of which this is true. -/
def calmly (P : Params) (s : Sys) : List Act → Option Sys
  | [] => some s
  | a :: as => if calmAct s a then
      match s.exec P a with
      | some s => calmly P s as
      | none => none
    else none

theorem calm_due {b : DmxBuffer} {now : Int} (h : calm b now = true) (f g : Int) : Due b now f ↔ Due b now g := by
  simp only [calm, Bool.or_eq_true, Bool.not_eq_true', decide_eq_true_eq] at h
  unfold Due
  rcases h with h | h
  · rw [h]; simp
  · exact iff_of_true (.inr h) (.inr h)

theorem calmly_execs {P Q : Params} {as : List Act} {s s' : Sys} (h : calmly P s as = some s') :
    s.execs P as = some s' ∧ TicksAlike P Q s as := by
  induction as generalizing s with
  | nil => exact ⟨h, trivial⟩
  | cons a as ih =>
    simp only [calmly] at h
    split at h
    case isFalse => cases h
    rename_i hc
    split at h
    case h_2 => cases h
    rename_i s1 hx
    obtain ⟨h1, h2⟩ := ih h
    refine ⟨by simp only [Sys.execs, hx]; exact h1, ?_, ?_⟩
    · rintro i c b r rest now rfl hi
      simp only [calmAct, hi] at hc
      exact TickSame.due (calm_due hc _ _)
    · intro s2 hx2
      rw [hx] at hx2
      cases hx2
      exact h2

/-- What a Controller does in such an execution every system that can light a lamp does, too. -/
theorem calmly_as {P Q : Params} (hP : CanLight P) (hQ : CanLight Q) {src : Bytes} {as : List Act} {s : Sys}
    (hi : ipEqual P.localIP src = ipEqual Q.localIP src) (hr : as.all (readsOnly src) = true)
    (h : calmly P (Sys.init P) as = some s) : (Sys.init Q).execs Q as = some (s.as Q) := by
  obtain ⟨h1, h2⟩ := calmly_execs (Q := Q) h
  have hk : SameKind P Q := ⟨hP.1.trans hQ.1.symm, iff_of_true hP.2.1 hQ.2.1, iff_of_true hP.2.2.1 hQ.2.2.1⟩
  have hok : ∀ R : Params, CanLight R → (tickerPeriod R.maxFPS).isOk := by
    intro R hR
    obtain ⟨d, hd⟩ := (C56_partial R.maxFPS).1.mpr hR.2.2.2
    rw [hd]; rfl
  rw [← as_init P Q, execs_as hk (fun _ => .inr ⟨hok P hP, hok Q hQ⟩) ⟨[], rfl⟩ (by intro t ht; cases ht) ?_ h2, h1]
  · rfl
  · intro i a d hm
    have := List.all_eq_true.mp hr _ hm
    simp only [readsOnly, beq_iff_eq] at this
    rw [this]
    exact hi

theorem sample_lights : CanLight sampleController :=
  ⟨rfl, rfl, ⟨by decide, by decide, fun i a b ha => by cases ha⟩, by decide, by decide⟩

/-! ### C127 -/

/-- A host at `src` announces the address `ip` of another. -/
def spoofing (src ip : Arr 4) : List Act :=
  sampleStart ++ sampleRead 5 ⟨src.val, 6454⟩ (pollReplyImage { replyOf ip 1 with port := 6454 }) ++
    [.run 6 .next, .run 6 .next, .run 6 .next, .run 3 .next, .run 3 .next, .run 3 .next, .run 3 .next,
      .run 3 .next, .run 3 .next, .run 3 (.at 0)] ++ sampleTick [⟨0, 1⟩] ++
      [.run 2 .next, .run 2 .next, .run 2 .next, .run 2 .next, .run 2 .next, .run 2 .next, .run 2 .next]

/-- ArtDMX is written to `ip`, though all that arrived came from `src`. -/
def Spoofed (src ip : Arr 4) (s : Sys) : Bool := s.arrived.all (fun x => x.address.ip == src.val) &&
  s.wire.any fun p => p.address.ip == ip.val && !isReply p && !isArtPoll p && (p.data.drop 8).take 2 == [0x00, 0x50]

theorem spoofed_all : ∀ x ∈ [(ipA, ipB), (ipB, ipA)],
    (calmly sampleController (Sys.init sampleController) (spoofing x.1 x.2)).any (Spoofed x.1 x.2) = true ∧
    (spoofing x.1 x.2).all (readsOnly x.1.val) = true ∧ ipEqual sampleController.localIP x.1.val = false ∧
    ¬ SameAddress x.1.val x.2.val := by
  unfold SameAddress
  decide +kernel

theorem says_isDmx {p : Payload} (h : saysDMX p.data) : isDmx p = true := by
  unfold saysDMX at h
  have h8 : byteAt p.data 8 = 0x00 := by
    have := congrArg (fun l => l[0]?.getD 0) h
    simpa [byteAt, List.getElem?_take] using this
  have h9 : byteAt p.data 9 = 0x50 := by
    have := congrArg (fun l => l[1]?.getD 0) h
    simpa [byteAt, List.getElem?_take] using this
  simp only [isDmx, h8, h9]
  decide

/-- C127 holds of the systems that cannot light a lamp, and of no others. -/
theorem C127_exact (P : Params) :
    (∀ s, Reach P s → ∀ p ∈ s.wire, saysDMX p.data → ∃ x ∈ s.arrived, SameAddress x.address.ip p.address.ip) ↔
    ¬ CanLight P := by
  constructor
  · intro h hP
    obtain ⟨ip, hip, he⟩ := other_ip P
    have hx : ∃ x ∈ [(ipA, ipB), (ipB, ipA)], x.1 = ip := by
      simp only [List.mem_cons, List.not_mem_nil, or_false] at hip
      rcases hip with rfl | rfl
      · exact ⟨_, List.mem_cons_self, rfl⟩
      · exact ⟨_, List.mem_cons_of_mem _ List.mem_cons_self, rfl⟩
    obtain ⟨x, hx, rfl⟩ := hx
    obtain ⟨h1, h2, h3, h4⟩ := spoofed_all x hx
    obtain ⟨s, hs, hf⟩ := Option.any_eq_true .. |>.mp h1
    have hr := calmly_as sample_lights hP (h3.trans he.symm) h2 hs
    simp only [Spoofed, Bool.and_eq_true, beq_iff_eq, List.any_eq_true, List.all_eq_true, Bool.not_eq_true'] at hf
    obtain ⟨f1, p, hp, ⟨⟨f2, f3⟩, f4⟩, f5⟩ := hf
    have hq : P.redraft p = p := by
      unfold Params.redraft
      rw [f3, f4]
      rfl
    obtain ⟨y, hy, hsame⟩ := h _ ⟨_, hr⟩ p (by
      show p ∈ s.wire.map P.redraft
      exact List.mem_map.mpr ⟨p, hp, hq⟩) f5
    rw [f1 y hy, f2] at hsame
    exact h4 hsame
  · intro hP s hr p hp hd
    have := List.filter_eq_nil_iff.mp (dark_wire hP hr) p hp
    exact absurd (says_isDmx hd) this

/-! ### C108 -/

/-- As `sampleOvertaken`, with a node at `ip`. -/
def overtakenLight (ip : Arr 4) : List Act := [.start, .listen true, .stop, .stopStep, .stopStep, .stopStep, .start, .listen true,
  .run 6 .next, .run 10 .next, .run 10 (.read ⟨ip.val, 6454⟩ (pollReplyImage { replyOf ip 1 with port := 6454 })),
  .run 10 .next, .run 10 .next, .run 10 .next, .run 6 .next, .run 6 .next, .run 6 .next,
  .run 11 .next, .run 11 .next, .run 11 .next,
  .run 8 .next, .run 8 .next, .run 8 .next, .run 8 .next, .run 8 .next, .run 8 .next, .run 8 (.at 0),
  .run 9 .next, .run 9 .next, .run 9 .tick, .run 9 (.order [⟨0, 1⟩] second),
  .run 9 .next, .run 9 .next, .run 9 .next, .run 9 .next,
  .call fullOn ⟨0, 1⟩, .run 12 .next,
  .run 9 .next, .run 9 .tick, .run 9 (.order [⟨0, 1⟩] (2 * second)), .run 9 .next, .run 9 .next, .run 9 .next,
  .run 7 .next, .run 7 .next, .run 7 .next, .run 7 .next,
  .run 2 .next, .run 2 .next, .run 7 .next, .run 7 .next, .run 7 .next, .run 7 .next, .run 2 .next, .run 2 .next]

theorem overtakenLight_all : ∀ ip ∈ [ipA, ipB],
    (calmly sampleController (Sys.init sampleController) (overtakenLight ip)).any
      (fun s => !((s.wire.filter isDmx).isSublist (s.emitted.map toPayload))) = true ∧
    (overtakenLight ip).all (readsOnly ip.val) = true ∧ ipEqual sampleController.localIP ip.val = false := by
  decide +kernel

theorem redraft_isDmx {P Q : Params} {s : Sys} (hr : Reach P s) : (s.as Q).wire.filter isDmx = s.wire.filter isDmx := by
  show (s.wire.map Q.redraft).filter isDmx = _
  have h : ∀ p ∈ s.wire, (isDmx p = true ∧ Q.redraft p = p) ∨ (isDmx p = false ∧ isDmx (Q.redraft p) = false) := by
    intro p hp
    have hrep : ∀ x : Payload, isReply x = true → isDmx x = false := by
      intro x hx
      simp only [isReply, Bool.and_eq_true, beq_iff_eq] at hx
      simp only [isDmx, hx.2]
      simp
    cases wire_sent hr p hp with
    | reply me hm hp =>
      refine .inr ⟨?_, ?_⟩
      · rw [hp]; exact hrep _ (me_is_reply hm _)
      · rw [hp, redraft_me P Q _ hm]; exact hrep _ (me_is_reply (me_eq Q) _)
    | poll _ hp => rw [hp, redraft_poll]; exact .inr ⟨poll_not_dmx _, poll_not_dmx _⟩
    | dmx e he hp =>
      have hd := (emitted_dmx hr).2 e he
      rw [hp]
      exact .inl ⟨dmx_is_dmx hd _, redraft_dmx Q hd _⟩
  generalize s.wire = l at h
  induction l with
  | nil => rfl
  | cons p l ih =>
    have ih := ih fun q hq => h q (List.mem_cons_of_mem _ hq)
    rcases h p List.mem_cons_self with ⟨h1, h2⟩ | ⟨h1, h2⟩
    · rw [List.map_cons, h2, List.filter_cons_of_pos h1, List.filter_cons_of_pos h1, ih]
    · rw [List.map_cons, List.filter_cons_of_neg (by rw [h2]; decide), List.filter_cons_of_neg (by rw [h1]; decide), ih]

/-- C108 holds of the systems that cannot light a lamp, and of no others. -/
theorem C108_exact (P : Params) :
    (∀ s, Reach P s → ∃ l : List Emission, l.Sublist s.emitted ∧ s.wire.filter isDmx = l.map toPayload ∧
      InOrder s.hist (madeFor s) l) ↔ ¬ CanLight P := by
  constructor
  · intro h hP
    obtain ⟨ip, hip, he⟩ := other_ip P
    obtain ⟨h1, h2, h3⟩ := overtakenLight_all ip hip
    obtain ⟨s, hs, hf⟩ := Option.any_eq_true .. |>.mp h1
    have hr := calmly_as sample_lights hP (h3.trans he.symm) h2 hs
    have hrs : Reach sampleController s := ⟨_, (calmly_execs (Q := P) hs).1⟩
    obtain ⟨l, hl, hw, _⟩ := h _ ⟨_, hr⟩
    rw [redraft_isDmx hrs] at hw
    have : (l.map toPayload).Sublist (s.emitted.map toPayload) := hl.map toPayload
    rw [← hw] at this
    rw [List.isSublist_iff_sublist.mpr this] at hf
    cases hf
  · intro hP s hr
    exact ⟨[], List.nil_sublist _, dark_wire hP hr, (C108_emitted hr).sublist (List.nil_sublist _)⟩

/-! ### C142 -/

/-- As `takenAway`, with a node at `ip`. -/
def takenAwayFrom (ip : Arr 4) : List Act :=
  sampleStart ++ sampleRead 5 ⟨ip.val, 6454⟩ (pollReplyImage { replyOf ip 1 with port := 6454 }) ++
    [.run 6 .next, .run 6 .next, .run 6 .next, .run 3 .next, .run 3 .next, .run 3 .next, .run 3 .next,
      .run 3 .next, .run 3 .next, .run 3 (.at 0)] ++
    (sampleTick [⟨0, 1⟩]).take 6 ++ [.stop, .stopStep, .stopStep, .stopStep]

/-- The update loop holds the lock, one universe is routed, and no call is being made. -/
def Holding (s : Sys) : Bool := (match s.threads[4]? with | some t => inSection t | none => false) &&
  s.ctrl.output.length == 1 && s.crashed == none && s.control == .idle

theorem takenAway_all : ∀ ip ∈ [ipA, ipB],
    (calmly sampleController (Sys.init sampleController) (takenAwayFrom ip)).any Holding = true ∧
    (takenAwayFrom ip).all (readsOnly ip.val) = true ∧ ipEqual sampleController.localIP ip.val = false := by
  decide +kernel

theorem as_section (Q : Params) (t : Thread) : inSection (t.as Q) = inSection t := by
  cases t <;> simp only [Thread.as, inSection]

/-- C142 holds of the systems that cannot light a lamp, and of no others. -/
theorem C142_exact (P : Params) :
    (∀ s, Reach P s → ∀ (i : Nat) (t : Thread), s.threads[i]? = some t → inSection t = true →
      (∀ (j : Nat) (u : Thread), s.threads[j]? = some u → inSection u = true → j = i) ∧
      ∀ (a : Act) (s' : Sys), s.exec P a = some s' → (∀ c, a ≠ .run i c) → s'.ctrl = s.ctrl) ↔ ¬ CanLight P := by
  constructor
  · intro h hP
    obtain ⟨ip, hip, he⟩ := other_ip P
    obtain ⟨h1, h2, h3⟩ := takenAway_all ip hip
    obtain ⟨s, hs, hf⟩ := Option.any_eq_true .. |>.mp h1
    have hr := calmly_as sample_lights hP (h3.trans he.symm) h2 hs
    simp only [Holding, Bool.and_eq_true, beq_iff_eq] at hf
    obtain ⟨⟨⟨f1, f2⟩, f3⟩, f4⟩ := hf
    split at f1
    case h_2 => cases f1
    rename_i t ht
    have hx : ∃ s', (s.as P).exec P .start = some s' := by
      unfold Sys.exec
      rw [show (s.as P).crashed = none from f3]
      simp only [Option.isSome_none, Bool.false_eq_true, if_false, show (s.as P).control = .idle from f4, valid_ok hP.2.2.1]
      exact ⟨_, rfl⟩
    obtain ⟨s', hx⟩ := hx
    have ht' : (s.as P).threads[4]? = some (t.as P) := by
      show (s.threads.map (Thread.as P))[4]? = _
      rw [List.getElem?_map, ht]
      rfl
    have h5 := (h _ ⟨_, hr⟩ 4 _ ht' (by rw [as_section]; exact f1)).2 .start s' hx nofun
    have h6 := (C142_start hx).2.2.2.2.1
    rw [h5, if_pos hP.1] at h6
    have h7 : s.ctrl.output = [] := h6
    rw [h7] at f2
    cases f2
  · intro hP s hr i t ht hi
    refine ⟨(C142_partial hr ht hi).1, fun a s' hx ha => ?_⟩
    by_cases has : a = .start
    · subst has
      rcases not_lights hP with h | h
      · obtain ⟨h1, h2, _⟩ := dark_tables h hr
        obtain ⟨g1, g2, g3, g4, g5, g6⟩ := C142_start hx
        rw [h1, ite_self] at g5
        rw [h2, ite_self] at g6
        cases hc : s.ctrl
        cases hc' : s'.ctrl
        simp only [hc, hc'] at *
        subst g1 g2 g3 g4 g5 g6 h1 h2
        rfl
      · have := (dark_rate h hr).2 t (List.mem_of_getElem? ht)
        cases t <;> first | (cases this; done) | (cases hi; done)
    · exact (C142_partial hr ht hi).2 a s' hx ha (fun e => absurd e has)

/-- There are systems of both kinds. -/
example : CanLight sampleController ∧ ¬ CanLight sampleNode := ⟨sample_lights, fun h => absurd h.1 (by decide)⟩

end Verif.Props
