import Verif.Props.Receive
import Verif.Lemmas.Count
import Verif.Lemmas.Neutral
import Verif.Lemmas.ConcAlive
import Verif.Props.Config
/-
The number of goroutines: C109.
-/
namespace Verif.Props
open Spec Packet Code Artnet Conc

/-! ### C109 -/

/-- C109 as stated: a node, controller or not, never has more than a fixed number of goroutines of its own. -/
def C109_statement : Prop := ∀ P : Params, ∃ N : Nat, ∀ s, TidyReach P s →
  (s.threads.countP fun t => t.alive && !t.isCaller) ≤ N

/-- A session of a system is on; recvLoop (1), the reader (`d`), what is in recvCh, and the number of goroutines begun
for packets. -/
structure At (P : Params) (d : Nat) (s : Sys) (t1 t3 : Thread) (rc : List Payload) (n : Nat) : Prop where
  reach : TidyReach P s
  alive : s.crashed = none
  on : s.shutdown = false
  cur : s.cur = some 0
  conn : s.conn = some 0
  opened : s.conns[0]? = some true
  chan : ∃ ch, s.chans[0]? = some ch ∧ ch.recv = rc
  recv : s.threads[1]? = some t1
  reader : s.threads[d]? = some t3
  count : s.threads.countP Thread.isHandler = n

theorem countP_set_same {l : List α} {i : Nat} {a b : α} (f : α → Bool) (h : l[i]? = some a) (hb : f b = f a) :
    (l.set i b).countP f = l.countP f := by
  obtain ⟨l1, l2, h1, h2⟩ := set_split h
  rw [h2, h1]
  simp [List.countP_append, List.countP_cons, hb]

/-- One more ArtPoll arrives, and the goroutine begun for it does not get to run. -/
theorem flood {P : Params} {d : Nat} {ip : Bytes} (hd : 1 ≠ d) (hip : ipEqual P.localIP ip = false) {s : Sys} {b : Bytes} {n : Nat} (h : At P d s .rlTop (.rdTop b) [] n) (hb : b.length = bufSize) :
    ∃ s' b', At P d s' .rlTop (.rdTop b') [] (n + 1) ∧ b'.length = bufSize := by
  have hdec : ∃ q, unmarshal samplePoll = .ok (some q, none) := by
    have hd : (match unmarshal samplePoll with | .ok (some _, none) => true | _ => false) = true := by decide +kernel
    split at hd
    · rename_i q e; exact ⟨q, e⟩
    · cases hd
  obtain ⟨q, hq⟩ := hdec
  have hcp : copyInto (List.replicate (readInto b samplePoll).2 0) (readInto b samplePoll).1 = samplePoll := by
    rw [readInto_copy b samplePoll hb]; rfl
  have hb' : (readInto b samplePoll).1.length = bufSize := (copyInto_length _ _).trans hb
  generalize hrb : readInto b samplePoll = rb at hcp hb'
  -- the reader moves to `t'`
  have go3 : ∀ {s : Sys} {t1 t3 : Thread} {rc : List Payload} {n : Nat} (c : Choice) (t' : Thread)
      (x : Sys → Sys), At P d s t1 t3 rc n →
      (∀ s, (x s).crashed = s.crashed ∧ (x s).shutdown = s.shutdown ∧ (x s).cur = s.cur ∧ (x s).conn = s.conn ∧
        (x s).conns = s.conns ∧ (x s).chans = s.chans ∧ (x s).threads = s.threads) →
      s.step P d t3 c = some ((x s).goto d t') → t'.isHandler = t3.isHandler →
      At P d ((x s).goto d t') t1 t' rc n := by
    intro s t1 t3 rc n c t' x ha hx hs hh
    obtain ⟨e1, e2, e3, e4, e5, e6, e7⟩ := hx s
    have l3 := (List.getElem?_eq_some_iff.mp ha.reader).1
    refine ⟨.step (a := .run d c) ha.reach (by rw [exec_run ha.alive ha.reader]; exact hs) nofun, ?_, ?_, ?_, ?_, ?_, ?_, ?_, ?_, ?_⟩
    · exact e1.trans ha.alive
    · exact e2.trans ha.on
    · exact e3.trans ha.cur
    · exact e4.trans ha.conn
    · show (x s).conns[0]? = _; rw [e5]; exact ha.opened
    · show ∃ ch, (x s).chans[0]? = _ ∧ _; rw [e6]; exact ha.chan
    · show ((x s).threads.set d t')[1]? = _; rw [e7]; rw [List.getElem?_set_ne (Ne.symm hd)]; exact ha.recv
    · show ((x s).threads.set d t')[d]? = _; rw [e7]; simp [l3]
    · show ((x s).threads.set d t').countP _ = _
      rw [e7, countP_set_same _ ha.reader hh]; exact ha.count
  have s1 := go3 .next (.rdWait 0 b) id h (fun _ => ⟨rfl, rfl, rfl, rfl, rfl, rfl, rfl⟩)
    (by simp [Sys.step, h.conn]) rfl
  have s2 := go3 (.read ⟨ip, 6454⟩ samplePoll) (.rdCheck rb.1 (some (rb.2, ⟨ip, 6454⟩)))
    (fun s => { s with arrived := s.arrived ++ [⟨⟨ip, 6454⟩, samplePoll⟩] }) s1
    (fun _ => ⟨rfl, rfl, rfl, rfl, rfl, rfl, rfl⟩) (by simp only [Sys.step, if_pos s1.opened, hrb]) rfl
  generalize Sys.goto _ d _ = u2 at s2
  clear s1 h s
  have s3 := go3 .next (.rdGot rb.1 ⟨⟨ip, 6454⟩, samplePoll⟩)
    (fun s => { s with accepted := s.accepted ++ [⟨⟨ip, 6454⟩, samplePoll⟩] }) s2
    (fun _ => ⟨rfl, rfl, rfl, rfl, rfl, rfl, rfl⟩) (by simp [Sys.step, s2.on, hip, hcp]) rfl
  generalize Sys.goto _ d _ = u3 at s3
  clear s2 u2
  have s4 := go3 .next (.rdPush 0 rb.1 ⟨⟨ip, 6454⟩, samplePoll⟩) id s3
    (fun _ => ⟨rfl, rfl, rfl, rfl, rfl, rfl, rfl⟩) (by simp [Sys.step, s3.cur]) rfl
  generalize Sys.goto _ d _ = u4 at s4
  clear s3 u3
  obtain ⟨ch, hc1, hc2⟩ := s4.chan
  have l3 := (List.getElem?_eq_some_iff.mp s4.reader).1
  have l0 := (List.getElem?_eq_some_iff.mp hc1).1
  -- into recvCh
  have s5 : At P d (({ u4 with chans := u4.chans.set 0 { ch with recv := [⟨⟨ip, 6454⟩, samplePoll⟩] } } : Sys).goto d
      (.rdTop rb.1)) .rlTop (.rdTop rb.1) [⟨⟨ip, 6454⟩, samplePoll⟩] n := by
    refine ⟨.step (a := .run d .next) s4.reach ?_ nofun, s4.alive, s4.on, s4.cur, s4.conn, s4.opened, ?_, ?_, ?_, ?_⟩
    · rw [exec_run s4.alive s4.reader]
      simp [Sys.step, Sys.comm, hc1, hc2, Chans.pushRecv, capacity]
    · exact ⟨{ ch with recv := [⟨⟨ip, 6454⟩, samplePoll⟩] }, by simp [Sys.goto, l0], rfl⟩
    · simpa [Sys.goto, hd, Ne.symm hd] using s4.recv
    · simp [Sys.goto, l3]
    · exact (countP_set_same (b := .rdTop rb.1) _ s4.reader rfl).trans s4.count
  generalize Sys.goto _ d _ = u5 at s5
  clear hc1 hc2 l0 l3 s4 u4 ch
  have l1 := (List.getElem?_eq_some_iff.mp s5.recv).1
  have s6 : At P d (u5.goto 1 (.rlWait 0)) (.rlWait 0) (.rdTop rb.1) [⟨⟨ip, 6454⟩, samplePoll⟩] n := by
    refine ⟨.step (a := .run 1 .next) s5.reach ?_ nofun, s5.alive, s5.on, s5.cur, s5.conn, s5.opened, s5.chan, ?_, ?_, ?_⟩
    · rw [exec_run s5.alive s5.recv]
      simp [Sys.step, s5.cur]
    · simp [Sys.goto, l1]
    · simpa [Sys.goto, hd] using s5.reader
    · exact (countP_set_same (b := .rlWait 0) _ s5.recv rfl).trans s5.count
  generalize Sys.goto _ 1 _ = u6 at s6
  clear l1 s5 u5
  obtain ⟨ch, hc1, hc2⟩ := s6.chan
  have l1 := (List.getElem?_eq_some_iff.mp s6.recv).1
  have l0 := (List.getElem?_eq_some_iff.mp hc1).1
  have s7 : At P d (({ u6 with chans := u6.chans.set 0 { ch with recv := [] } } : Sys).goto 1
      (.rlParse ⟨⟨ip, 6454⟩, samplePoll⟩)) (.rlParse ⟨⟨ip, 6454⟩, samplePoll⟩) (.rdTop rb.1) [] n := by
    refine ⟨.step (a := .run 1 .next) s6.reach ?_ nofun, s6.alive, s6.on, s6.cur, s6.conn, s6.opened, ?_, ?_, ?_, ?_⟩
    · rw [exec_run s6.alive s6.recv]
      simp [Sys.step, hc1, hc2]
    · exact ⟨{ ch with recv := [] }, by simp [Sys.goto, l0], rfl⟩
    · simp [Sys.goto, l1]
    · simpa [Sys.goto, hd] using s6.reader
    · exact (countP_set_same (b := .rlParse _) _ s6.recv rfl).trans s6.count
  generalize Sys.goto _ 1 _ = u7 at s7
  clear hc1 hc2 l0 l1 s6 u6 ch
  have l1 := (List.getElem?_eq_some_iff.mp s7.recv).1
  have l3 := (List.getElem?_eq_some_iff.mp s7.reader).1
  refine ⟨{ u7.goto 1 .rlTop with threads := (u7.goto 1 .rlTop).threads ++ [.hStart q] }, rb.1, ?_, hb'⟩
  refine ⟨.step (a := .run 1 .next) s7.reach ?_ nofun, s7.alive, s7.on, s7.cur, s7.conn, s7.opened, s7.chan, ?_, ?_, ?_⟩
  · rw [exec_run s7.alive s7.recv]
    simp [Sys.step, hq]
  · simp [Sys.goto, l1, List.getElem?_append]
  · have : ((u7.threads.set 1 Thread.rlTop) ++ [Thread.hStart q])[d]? = some (Thread.rdTop rb.1) := by
      rw [List.getElem?_append_left (by simpa using l3)]
      simpa [hd] using s7.reader
    exact this
  · show ((u7.threads.set 1 Thread.rlTop) ++ [Thread.hStart q]).countP Thread.isHandler = _
    rw [List.countP_append, countP_set_same (b := .rlTop) _ s7.recv rfl, s7.count]
    rfl

/-- Within one session there can be any number of goroutines, each begun for a packet, whatever the configuration. -/
theorem C109_flood {P : Params} (hv : ValidConfig P.config) (n : Nat) : ∃ s, TidyReach P s ∧ s.shutdown = false ∧
    s.threads.countP Thread.isHandler = n := by
  obtain ⟨r, hr, hvr⟩ := C32_validate P.config
  cases hvr.mpr hv
  have hip : ∃ ip, ipEqual P.localIP ip = false := by
    cases h1 : ipEqual P.localIP [2, 0, 0, 2] with
    | false => exact ⟨_, h1⟩
    | true =>
      cases h2 : ipEqual P.localIP [2, 0, 0, 3] with
      | false => exact ⟨_, h2⟩
      | true => exact absurd (ipEqual_v4 rfl rfl h1 h2) (by decide)
  obtain ⟨ip, hip⟩ := hip
  have h0 : ∃ d s b, 1 ≠ d ∧ At P d s .rlTop (.rdTop b) [] 0 ∧ b.length = bufSize := by
    have hx : ∃ s, tidily P (Sys.init P) [.start, .listen true, .run 1 .next] = some s ∧ s.crashed = none ∧
        s.shutdown = false ∧ s.cur = some 0 ∧ s.conn = some 0 ∧ s.conns = [true] ∧ s.chans = [Chans.make] ∧
        s.threads = (if P.controller then [.prInit, .rlTop, .slTop, .plSendTop, .duInit] else [.prInit, .rlTop, .slTop]) ++
          [.rdTop (List.replicate bufSize 0)] := by
      cases hc : P.controller <;>
        simp [tidily, inTime, Sys.exec, Sys.init, hc, hr, Sys.resetTables, Sys.makeChannels, Params.goroutines, Sys.step,
          Sys.goto]
    obtain ⟨s, hx, h1, h2, h3, h4, h5, h6, h7⟩ := hx
    refine ⟨if P.controller then 5 else 3, s, List.replicate bufSize 0, by split <;> decide, ⟨tidily_reach .init hx, h1, h2,
      h3, h4, by rw [h5]; rfl, ⟨Chans.make, by rw [h6]; rfl, rfl⟩, ?_, ?_, ?_⟩, List.length_replicate ..⟩ <;>
      rw [h7] <;> cases P.controller <;> rfl
  obtain ⟨d, s0, b0, hd, h0, hb0⟩ := h0
  suffices ∃ s b, At P d s .rlTop (.rdTop b) [] n ∧ b.length = bufSize by
    obtain ⟨s, b, h, _⟩ := this
    exact ⟨s, h.reach, h.on, h.count⟩
  induction n with
  | zero => exact ⟨s0, b0, h0, hb0⟩
  | succ n ih =>
    obtain ⟨s, b, h, hb⟩ := ih
    obtain ⟨s', b', h', hb'⟩ := flood hd hip h hb
    exact ⟨s', b', h', hb'⟩

/-- Of a system whose configuration is not valid there are never any goroutines but the user's. -/
theorem unstarted {P : Params} (hv : ¬ ValidConfig P.config) {s : Sys} (h : Reach P s) :
    s.control ≠ .listening ∧ ∀ t ∈ s.threads, t = .done ∨ ∃ d a, t = .caller d a := by
  have hn : P.config.validate ≠ .ok none := by
    obtain ⟨r, hr, hvr⟩ := C32_validate P.config
    intro h0
    rw [h0] at hr
    exact hv (hvr.mp (Except.ok.inj hr).symm)
  refine Reach.inductExec (P := P) (I := fun s => s.control ≠ .listening ∧
    ∀ t ∈ s.threads, t = .done ∨ ∃ d a, t = .caller d a) ⟨nofun, nofun⟩ ?_ h
  rintro s s' a _ ⟨hc, ht⟩ hx
  have hcr := (exec_Step hx).1
  cases a with
  | run i c =>
    cases hi : s.threads[i]? with
    | none =>
      unfold Sys.exec at hx
      simp [hcr, hi] at hx
    | some t =>
      rw [exec_run hcr hi] at hx
      rcases ht t (List.mem_of_getElem? hi) with rfl | ⟨d, a, rfl⟩
      · cases c <;> cases hx
      · cases c <;> simp only [Sys.step] at hx <;> try cases hx
        split at hx
        · cases hx
        · cases hx
          refine ⟨hc, fun t h1 => ?_⟩
          rcases List.mem_or_eq_of_mem_set h1 with h1 | h1
          · exact ht t h1
          · exact .inl h1
  | start =>
    unfold Sys.exec at hx
    simp only [hcr, Option.isSome_none, Bool.false_eq_true, if_false] at hx
    split at hx
    · cases hx
    · split at hx
      · cases hx; split <;> exact ⟨hc, ht⟩
      · cases hx; split <;> exact ⟨hc, ht⟩
      · rename_i h0; exact absurd h0 hn
  | listen ok =>
    unfold Sys.exec at hx
    simp only [hcr, Option.isSome_none, Bool.false_eq_true, if_false] at hx
    rw [if_pos hc] at hx
    cases hx
  | call d a =>
    unfold Sys.exec at hx
    simp only [hcr, Option.isSome_none, Bool.false_eq_true, if_false] at hx
    split at hx
    · cases hx
      refine ⟨hc, fun t h1 => ?_⟩
      rcases List.mem_append.mp h1 with h1 | h1
      · exact ht t h1
      · exact .inr ⟨d, a, List.mem_singleton.mp h1⟩
    · cases hx
  | stop | stopStep | register | deregister =>
    unfold Sys.exec at hx
    simp only [hcr, Option.isSome_none, Bool.false_eq_true, if_false, Sys.panic] at hx
    (repeat' split at hx) <;> first | (cases hx; done) | (cases hx; exact ⟨hc, ht⟩) | (cases hx; exact ⟨nofun, ht⟩)

/-- C109, which systems have the property: only those that cannot be started. -/
theorem C109_exact (P : Params) : (∃ N : Nat, ∀ s, TidyReach P s →
    (s.threads.countP fun t => t.alive && !t.isCaller) ≤ N) ↔ ¬ ValidConfig P.config := by
  constructor
  · rintro ⟨N, hN⟩ hv
    obtain ⟨s, hr, _, hc⟩ := C109_flood hv (N + 1)
    have h1 := hN s hr
    have h2 : s.threads.countP Thread.isHandler ≤ s.threads.countP (fun t => t.alive && !t.isCaller) := by
      refine List.countP_mono_left fun t _ ht => ?_
      cases t <;> first | rfl | cases ht
    omega
  · intro hv
    refine ⟨0, fun s hr => Nat.le_of_eq ?_⟩
    rw [List.countP_eq_zero]
    intro t ht
    rcases (unstarted hv hr.reach).2 t ht with rfl | ⟨_, _, rfl⟩ <;> simp [Thread.alive, Thread.isCaller]

theorem C109_false : ¬ C109_statement := by
  intro h
  exact (C109_exact sampleNode).mp (h sampleNode) ⟨by decide, by decide, fun i a b ha => by cases ha⟩

/-- Both kinds of systems exist. -/
example : ValidConfig sampleController.config ∧ ¬ ValidConfig
    ({ sampleNode with config := { sampleNode.config with outputPorts := List.replicate 5 ⟨⟨0, 1⟩, 0, 0⟩ } } : Params).config := by
  refine ⟨⟨by decide, by decide, fun i a b ha => by cases ha⟩, fun h => ?_⟩
  exact absurd h.2.1 (by decide)

/-- C109 as far as it holds: every goroutine that has not returned is a loop begun by Start or by recvLoop, one begun for a
packet, or one of the user's. There are at most four loops, six for a controller, when every Start waits for the goroutines of
the session before; and never more begun for packets than payloads were accepted. -/
theorem C109_partial {P : Params} {s : Sys} (h : TidyReach P s) :
    (∀ t ∈ s.threads, t.alive = true → t.isLoop = true ∨ t.isHandler = true ∨ t.isCaller = true) ∧
    s.threads.countP Thread.isLoop ≤ (if P.controller then 6 else 4) ∧
    s.threads.countP Thread.isHandler ≤ s.accepted.length := by
  refine ⟨fun t _ ht => ?_, ?_, ?_⟩
  · cases t <;> first | exact .inl rfl | exact .inr (.inl rfl) | exact .inr (.inr rfl) | cases ht
  · exact Nat.le_trans (countP_total _ _ isLoop_w _) (loops_tidy h).1
  · have := countP_total _ _ isHandler_w s.threads
    have := handlers_le h.reach
    omega

/-- C109 without any assumption on Start: each call that could listen adds four loops, six for a controller. -/
theorem C109_sessions {P : Params} {s : Sys} (h : Reach P s) :
    s.threads.countP Thread.isLoop ≤ (if P.controller then 6 else 4) * s.conns.length ∧
    s.threads.countP Thread.isHandler ≤ s.accepted.length := by
  refine ⟨Nat.le_trans (countP_total _ _ isLoop_w _) (loops_all h), ?_⟩
  have := countP_total _ _ isHandler_w s.threads
  have := handlers_le h
  omega

/-- The bounds are reached: by a controller in its first session, and by one that is started again at once. -/
example : afterTidy sampleController sampleStart (fun s => s.threads.countP Thread.isLoop == 6) = true ∧
    after sampleController (sampleStart ++ [.stop, .stopStep, .stopStep, .stopStep, .start, .listen true, .run 7 .next])
      (fun s => s.threads.countP Thread.isLoop == 12 && s.conns.length == 2) = true ∧
    afterTidy sampleNode (sampleStart ++ sampleRead 3 ⟨[2, 0, 0, 2], 6454⟩ samplePoll)
      (fun s => s.threads.countP Thread.isHandler == 1 && s.accepted.length == 1) = true := by
  decide +kernel

end Verif.Props
