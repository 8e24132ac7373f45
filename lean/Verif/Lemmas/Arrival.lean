import Verif.Spec.Arrival
import Verif.Lemmas.ConcWire
/-
The order in which received datagrams are handled.
-/
namespace Verif.Conc
open Packet Code Artnet

/-- The goroutine is a recvLoop. -/
def wRl : Thread → Nat
  | .rlInit | .rlTop | .rlWait _ | .rlParse _ => 1
  | _ => 0

/-- The goroutine is a reader, or is to start one. -/
def wRd : Thread → Nat
  | .rlInit | .rdTop _ | .rdWait _ _ | .rdCheck _ _ | .rdGot _ _ | .rdPush _ _ _ => 1
  | _ => 0

theorem idle_none {w : Thread → Nat} (hw : ∀ t, t.idle = true → w t = 0) {l : List Thread}
    (h : ∀ t ∈ l, t.idle = true) : total w l = 0 := by
  induction l with
  | nil => rfl
  | cons a l ih =>
    rw [total_cons, hw a (h a (List.mem_cons_self ..)), ih fun t ht => h t (List.mem_cons_of_mem _ ht)]

theorem flat_none {w : Thread → Nat} {f : Thread → List α} (hf : ∀ t, w t = 0 → f t = []) {l : List Thread}
    (h : total w l = 0) : l.flatMap f = [] := by
  induction l with
  | nil => rfl
  | cons a l ih =>
    simp only [total_cons] at h
    rw [List.flatMap_cons, hf a (by omega), ih (by omega)]
    rfl

theorem flat_single {w : Thread → Nat} {f : Thread → List α} (hf : ∀ t, w t = 0 → f t = []) {l : List Thread} {i : Nat}
    {t : Thread} (h : l[i]? = some t) (h1 : total w l ≤ 1) (ht : w t = 1) (t' : Thread) :
    l.flatMap f = f t ∧ (l.set i t').flatMap f = f t' := by
  obtain ⟨l1, l2, hl, hs⟩ := set_split h
  rw [hs t', hl]
  rw [hl] at h1
  simp only [total_append, total_cons] at h1
  simp [flat_none hf (l := l1) (by omega), flat_none hf (l := l2) (by omega)]

theorem flat_eq {f : Thread → List α} {l : List Thread} {i : Nat} {t : Thread} (h : l[i]? = some t) {t' : Thread}
    (ht : f t = f t') : (l.set i t').flatMap f = l.flatMap f := by
  obtain ⟨l1, l2, hl, hs⟩ := set_split h
  rw [hs t', hl]
  simp [ht]

theorem flat_drop {f : Thread → List α} {l : List Thread} {i : Nat} {t : Thread} (h : l[i]? = some t) {t' : Thread}
    (ht : f t' = []) : ((l.set i t').flatMap f).Sublist (l.flatMap f) := by
  obtain ⟨l1, l2, hl, hs⟩ := set_split h
  rw [hs t', hl]
  simp [ht]

/-- There is one recvLoop and one reader at most, and none before Start has a connection. -/
theorem receivers {P : Params} {s : Sys} (h : TidyReach P s) : (total wRl s.threads ≤ 1 ∧ total wRd s.threads ≤ 1) ∧
    (s.control = .listening → total wRl s.threads = 0 ∧ total wRd s.threads = 0) := by
  refine TidyReach.induct (P := P) (I := fun s => (total wRl s.threads ≤ 1 ∧ total wRd s.threads ≤ 1) ∧
    (s.control = .listening → total wRl s.threads = 0 ∧ total wRd s.threads = 0)) ?_ ?_ h
  · exact ⟨⟨Nat.zero_le _, Nat.zero_le _⟩, nofun⟩
  intro s s' _ ih _ hst hclean
  have key : ∀ {i : Nat} {t : Thread} (t' : Thread), s.threads[i]? = some t → wRl t' ≤ wRl t ∧ wRd t' ≤ wRd t →
      (total wRl (s.threads.set i t') ≤ 1 ∧ total wRd (s.threads.set i t') ≤ 1) ∧
      (s.control = .listening → total wRl (s.threads.set i t') = 0 ∧ total wRd (s.threads.set i t') = 0) := by
    intro i t t' ht hw
    have h1 := total_set wRl ht t'
    have h2 := total_set wRd ht t'
    have h3 := ih.1
    refine ⟨⟨by omega, by omega⟩, fun hc => by have := ih.2 hc; omega⟩
  cases hst with
  | move ht m => exact key _ ht (by
      cases m <;> exact ⟨by first | exact Nat.le_refl _ | exact Nat.zero_le _, by first | exact Nat.le_refl _ | exact Nat.zero_le _⟩)
  | popPoll ht | popSend ht | popRecv ht | popReply ht | pushRecv ht | pushPoll ht
  | pushOwn ht | pushDmx ht | pushReply ht => exact key _ ht ⟨by first | exact Nat.le_refl _ | exact Nat.zero_le _, by first | exact Nat.le_refl _ | exact Nat.zero_le _⟩
  | pushSend ht hk => exact key _ ht (by cases hk <;> exact ⟨Nat.le_refl _, Nat.le_refl _⟩)
  | arrive ht | lose ht | write ht | gc ht | ignore ht | reply ht | lock ht | unlock ht | tickAt ht
  | sendDMX ht | drop ht | reject ht | accept ht =>
    exact key _ ht ⟨by first | exact Nat.le_refl _ | exact Nat.zero_le _, by first | exact Nat.le_refl _ | exact Nat.zero_le _⟩
  | call ht hh hc => exact key _ ht (by cases hc <;> exact ⟨Nat.le_refl _, Nat.le_refl _⟩)
  | @spawnReader i ht =>
    have h1 := total_set wRl ht .rlTop
    have h2 := total_set wRd ht .rlTop
    have h3 := ih.1
    simp only [Sys.goto, total_append, total_cons, total_nil, wRl, wRd] at h1 h2 ⊢
    refine ⟨⟨by omega, by omega⟩, fun hc => by have := ih.2 hc; omega⟩
  | spawnHandler ht =>
    have := key .rlTop ht ⟨Nat.le_refl _, Nat.zero_le _⟩
    simp only [Sys.goto, total_append]
    simpa [wRl, wRd] using this
  | start hc =>
    simp only [Sys.reset, Sys.makeChannels, Sys.resetTables] at hclean ⊢
    have hcl := hclean (.inl (by split <;> simp))
    have e1 := idle_none (w := wRl) (by intro t h; cases t <;> first | rfl | cases h) hcl
    have e2 := idle_none (w := wRd) (by intro t h; cases t <;> first | rfl | cases h) hcl
    split <;> exact ⟨⟨by show total wRl s.threads ≤ 1; omega, by show total wRd s.threads ≤ 1; omega⟩, fun _ => ⟨e1, e2⟩⟩
  | startPanic | startFail =>
    simp only [Sys.reset, Sys.panic, Sys.resetTables]
    split <;> exact ih
  | listen hc =>
    have h2 := ih.2 hc
    have h3 : total wRl P.goroutines = 1 ∧ total wRd P.goroutines = 1 := by
      simp only [Params.goroutines]; split <;> exact ⟨rfl, rfl⟩
    refine ⟨?_, nofun⟩
    simp only [total_append]
    omega
  | spawnCaller => simpa [wRl, wRd] using ih
  | close | disconnect | disconnectC | listenFail | stop | ended => exact ⟨ih.1, nofun⟩
  | panic | register | deregister | noRegister => exact ih

theorem parsing_none (t : Thread) (h : wRl t = 0) : t.parsing = [] := by
  cases t <;> first | rfl | cases h

theorem bringing_none (t : Thread) (h : wRd t = 0) : t.bringing = [] := by
  cases t <;> first | rfl | cases h

theorem newest_set {f : Chans → List α} {s : Sys} {g : Nat} {ch ch' : Chans} (h : s.chans[g]? = some ch)
    (hf : f ch' = f ch) : (s.setCh g ch').newest f = s.newest f := by
  simp only [Sys.newest, Sys.setCh, List.getLast?_eq_getElem?, List.length_set]
  by_cases hg : s.chans.length - 1 = g
  · rw [hg, h, List.getElem?_set_self (List.getElem?_eq_some_iff.mp h).1]; exact hf
  · rw [List.getElem?_set_ne (Ne.symm hg)]

theorem newest_top {f : Chans → List α} {s : Sys} {g : Nat} {ch ch' : Chans} (h : s.chans[g]? = some ch)
    (hg : g + 1 = s.chans.length) : s.newest f = f ch ∧ (s.setCh g ch').newest f = f ch' := by
  have e : s.chans.length - 1 = g := by omega
  simp only [Sys.newest, Sys.setCh, List.getLast?_eq_getElem?, List.length_set, e, h,
    List.getElem?_set_self (List.getElem?_eq_some_iff.mp h).1, and_self]

/-- What is still to be handled, in the order in which it will be. -/
def Sys.toCome (s : Sys) : List AnyPacket := s.handling ++ s.line.filterMap decode

theorem Sys.toCome_eq (s : Sys) : s.toCome = s.handling ++ ((s.threads.flatMap Thread.parsing).filterMap decode ++
    (s.newest Chans.recv).filterMap decode ++ (s.threads.flatMap Thread.bringing).filterMap decode) := by
  simp only [Sys.toCome, Sys.line, List.filterMap_append]

/-- What a step does to it. -/
inductive Comes (s s' : Sys) : Prop
  | less (ha : s'.accepted = s.accepted) (hc : s'.calls = s.calls) (h : s'.toCome.Sublist s.toCome)
  | more (p : Payload) (ha : s'.accepted = s.accepted ++ [p]) (hc : s'.calls = s.calls)
      (h : s'.toCome = s.toCome ++ [p].filterMap decode)
  | call (i : Nat) (h : Handler) (p : AnyPacket) (t' : Thread) (ht : s.threads[i]? = some (.hStart p))
      (ha : s'.accepted = s.accepted) (hc : s'.calls = s.calls ++ [(h, p)]) (hn : t'.handling = [])
      (hh : s'.handling = (s.threads.set i t').flatMap Thread.handling) (hl : s'.line = s.line)

theorem decode_of {p : Payload} {q : AnyPacket} (hu : unmarshal p.data = .ok (some q, none)) : decode p = some q := by
  simp only [decode, hu]

theorem comes {P : Params} {s s' : Sys} (hr : TidyReach P s) (hst : Step P s s') : Comes s s' := by
  have hrl := (receivers hr).1.1
  have hrd := (receivers hr).1.2
  have keep : ∀ {u : Sys} {i : Nat} {t t' : Thread}, s.threads[i]? = some t → u.threads = s.threads.set i t' →
      t'.handling = t.handling → t'.parsing = t.parsing → t'.bringing = t.bringing →
      u.newest Chans.recv = s.newest Chans.recv → u.accepted = s.accepted → u.calls = s.calls → Comes s u := by
    intro u i t t' ht hu h1 h2 h3 hn ha hc
    refine .less ha hc ?_
    simp only [Sys.toCome_eq, Sys.handling, hu, hn]
    rw [flat_eq ht h1.symm, flat_eq ht h2.symm, flat_eq ht h3.symm]
    exact List.Sublist.refl _
  have same : ∀ u : Sys, u.threads = s.threads → u.newest Chans.recv = s.newest Chans.recv →
      u.accepted = s.accepted → u.calls = s.calls → Comes s u := by
    intro u hu hn ha hc
    refine .less ha hc ?_
    simp only [Sys.toCome_eq, Sys.handling, hu, hn]
    exact List.Sublist.refl _
  cases hst with
  | move ht m =>
    cases m <;> exact keep ht rfl rfl rfl rfl rfl rfl rfl
  | popPoll ht hg | popSend ht hg | popReply ht hg | pushPoll ht hg
  | pushOwn ht hg | pushDmx ht hg | pushReply ht hg =>
    exact keep ht rfl rfl rfl rfl (newest_set hg rfl) rfl rfl
  | pushSend ht hk hg =>
    exact keep ht rfl (by cases hk <;> rfl) (by cases hk <;> rfl) (by cases hk <;> rfl) (newest_set hg rfl) rfl rfl
  | @popRecv i g ch p q ht hg hq =>
    refine .less rfl rfl ?_
    obtain ⟨e1, e2⟩ := flat_single parsing_none ht hrl rfl (.rlParse p)
    obtain ⟨n1, n2⟩ := newest_top (f := Chans.recv) (ch' := { ch with recv := q }) hg
      (latest hr _ (List.mem_of_getElem? ht))
    have n2' : ((s.setCh g { ch with recv := q }).goto i (.rlParse p)).newest Chans.recv = q := n2
    rw [Sys.toCome_eq, Sys.toCome_eq, n1, n2', e1, hq]
    show (List.flatMap _ (s.threads.set i _) ++ (List.filterMap decode (List.flatMap _ (s.threads.set i _)) ++ _ ++
      List.filterMap decode (List.flatMap _ (s.threads.set i _)))).Sublist _
    rw [e2, flat_eq (f := Thread.handling) (t' := .rlParse p) ht rfl,
      flat_eq (f := Thread.bringing) (t' := .rlParse p) ht rfl]
    refine (List.Sublist.refl _).append ((?_ : List.Sublist _ _).append (List.Sublist.refl _))
    show (List.filterMap decode [p] ++ List.filterMap decode q).Sublist ([] ++ List.filterMap decode (p :: q))
    rw [← List.filterMap_append]
    exact List.Sublist.refl _
  | @pushRecv i g b p ch ht hg hl =>
    refine .less rfl rfl ?_
    obtain ⟨e1, e2⟩ := flat_single bringing_none ht hrd rfl (.rdTop b)
    obtain ⟨n1, n2⟩ := newest_top (f := Chans.recv) (ch' := { ch with recv := ch.recv ++ [p] }) hg
      (latest hr _ (List.mem_of_getElem? ht))
    have n2' : ((s.setCh g { ch with recv := ch.recv ++ [p] }).goto i (.rdTop b)).newest Chans.recv = ch.recv ++ [p] := n2
    rw [Sys.toCome_eq, Sys.toCome_eq, n1, n2', e1]
    show (List.flatMap _ (s.threads.set i _) ++ (List.filterMap decode (List.flatMap _ (s.threads.set i _)) ++ _ ++
      List.filterMap decode (List.flatMap _ (s.threads.set i _)))).Sublist _
    rw [e2, flat_eq (f := Thread.handling) (t' := .rdTop b) ht rfl,
      flat_eq (f := Thread.parsing) (t' := .rdTop b) ht rfl]
    simp only [Thread.bringing, List.filterMap_append, List.filterMap_nil, List.append_nil, List.append_assoc]
    exact List.Sublist.refl _
  | @accept i b n src ht h hi =>
    refine .more ⟨src, copyInto (List.replicate n 0) b⟩ rfl rfl ?_
    obtain ⟨e1, e2⟩ := flat_single bringing_none ht hrd rfl (.rdGot b ⟨src, copyInto (List.replicate n 0) b⟩)
    rw [Sys.toCome_eq, Sys.toCome_eq, e1]
    show (List.flatMap _ (s.threads.set i _) ++ (List.filterMap decode (List.flatMap _ (s.threads.set i _)) ++ _ ++
      List.filterMap decode (List.flatMap _ (s.threads.set i _)))) = _
    rw [e2, flat_eq (f := Thread.handling) (t' := .rdGot b _) ht rfl,
      flat_eq (f := Thread.parsing) (t' := .rdGot b _) ht rfl]
    simp only [Thread.bringing, List.filterMap_nil, List.append_nil, List.append_assoc]
    rfl
  | @spawnHandler i p q ht hu =>
    refine .less rfl rfl ?_
    obtain ⟨e1, e2⟩ := flat_single parsing_none ht hrl rfl .rlTop
    rw [Sys.toCome_eq, Sys.toCome_eq, e1]
    show (List.flatMap _ (s.threads.set i _ ++ [_]) ++ (List.filterMap decode (List.flatMap _ (s.threads.set i _ ++ [_])) ++ _ ++
      List.filterMap decode (List.flatMap _ (s.threads.set i _ ++ [_])))).Sublist _
    rw [List.flatMap_append, List.flatMap_append, List.flatMap_append, e2,
      flat_eq (f := Thread.handling) (t' := .rlTop) ht rfl,
      flat_eq (f := Thread.bringing) (t' := .rlTop) ht rfl]
    have hd : List.filterMap decode (Thread.parsing (.rlParse p)) = [q] := by
      simp only [Thread.parsing, List.filterMap_cons, decode_of hu, List.filterMap_nil]
    rw [hd]
    simp only [Thread.bringing, Thread.handling, Thread.parsing, List.flatMap_cons, List.flatMap_nil,
      List.append_nil, List.append_assoc, List.filterMap_nil, List.nil_append]
    exact List.Sublist.refl _
  | @reject i p r ht hu hn =>
    refine .less rfl rfl ?_
    rw [Sys.toCome_eq, Sys.toCome_eq]
    exact (flat_drop (f := Thread.handling) (t' := .rlTop) ht rfl).append
      ((((flat_drop (f := Thread.parsing) (t' := .rlTop) ht rfl).filterMap _).append (List.Sublist.refl _)).append
        ((flat_drop (f := Thread.bringing) (t' := .rlTop) ht rfl).filterMap _))
  | @drop i p ht h =>
    refine .less rfl rfl ?_
    rw [Sys.toCome_eq, Sys.toCome_eq]
    exact (flat_drop (f := Thread.handling) (t' := .done) ht rfl).append
      ((((flat_drop (f := Thread.parsing) (t' := .done) ht rfl).filterMap _).append (List.Sublist.refl _)).append
        ((flat_drop (f := Thread.bringing) (t' := .done) ht rfl).filterMap _))
  | @lose i b res ht h =>
    refine .less rfl rfl ?_
    rw [Sys.toCome_eq, Sys.toCome_eq]
    exact (flat_drop (f := Thread.handling) (t' := .done) ht rfl).append
      ((((flat_drop (f := Thread.parsing) (t' := .done) ht rfl).filterMap _).append (List.Sublist.refl _)).append
        ((flat_drop (f := Thread.bringing) (t' := .done) ht rfl).filterMap _))
  | @call i p h t' ht hh hc =>
    refine .call i h p t' ht rfl rfl (by cases hc <;> rfl) rfl ?_
    show (s.threads.set i t').flatMap _ ++ _ ++ (s.threads.set i t').flatMap _ = _
    rw [flat_eq (f := Thread.parsing) (t' := t') ht (by cases hc <;> rfl),
      flat_eq (f := Thread.bringing) (t' := t') ht (by cases hc <;> rfl)]
    rfl
  | arrive ht | write ht | gc ht | ignore ht | reply ht | lock ht | unlock ht | tickAt ht
  | sendDMX ht => exact keep ht rfl rfl rfl rfl rfl rfl rfl
  | @spawnReader i ht =>
    refine .less rfl rfl ?_
    rw [Sys.toCome_eq, Sys.toCome_eq]
    show (List.flatMap _ (s.threads.set i _ ++ [_]) ++ (List.filterMap decode (List.flatMap _ (s.threads.set i _ ++ [_])) ++ _ ++
      List.filterMap decode (List.flatMap _ (s.threads.set i _ ++ [_])))).Sublist _
    rw [List.flatMap_append, List.flatMap_append, List.flatMap_append,
      flat_eq (f := Thread.handling) (t' := .rlTop) ht rfl, flat_eq (f := Thread.parsing) (t' := .rlTop) ht rfl,
      flat_eq (f := Thread.bringing) (t' := .rlTop) ht rfl]
    simp only [Thread.bringing, Thread.handling, Thread.parsing, List.flatMap_cons, List.flatMap_nil,
      List.append_nil]
    exact List.Sublist.refl _
  | start hc =>
    have hn : ((s.reset P).makeChannels).newest Chans.recv = [] := by
      simp only [Sys.newest, Sys.makeChannels, List.getLast?_concat]; rfl
    have ht : ((s.reset P).makeChannels).threads = s.threads := by
      simp only [Sys.reset, Sys.makeChannels, Sys.resetTables]; split <;> rfl
    refine .less ?_ ?_ ?_
    · simp only [Sys.reset, Sys.makeChannels, Sys.resetTables]; split <;> rfl
    · simp only [Sys.reset, Sys.makeChannels, Sys.resetTables]; split <;> rfl
    · simp only [Sys.toCome_eq, Sys.handling, hn, ht]
      exact (List.Sublist.refl _).append (((List.Sublist.refl _).append (List.nil_sublist _)).append (List.Sublist.refl _))
  | startPanic | startFail =>
    simp only [Sys.reset, Sys.panic, Sys.resetTables]
    split <;> exact same _ rfl rfl rfl rfl
  | listen hc =>
    refine .less rfl rfl ?_
    have hg : P.goroutines.flatMap Thread.handling = [] ∧ P.goroutines.flatMap Thread.parsing = [] ∧
        P.goroutines.flatMap Thread.bringing = [] := by
      simp only [Params.goroutines]; split <;> exact ⟨rfl, rfl, rfl⟩
    simp only [Sys.toCome_eq, Sys.handling, List.flatMap_append, hg.1, hg.2.1, hg.2.2, List.append_nil]
    exact List.Sublist.refl _
  | spawnCaller =>
    refine .less rfl rfl ?_
    simp only [Sys.toCome_eq, Sys.handling, List.flatMap_append, List.flatMap_cons, List.flatMap_nil, Thread.handling,
      Thread.parsing, Thread.bringing, List.append_nil]
    exact List.Sublist.refl _
  | close hc h hg hd => exact same _ rfl (newest_set hg rfl) rfl rfl
  | panic | listenFail | stop | disconnect | disconnectC | ended | register | deregister | noRegister =>
    exact same _ rfl rfl rfl rfl

/-- What is still to be handled is in the order of arrival. -/
theorem toCome_order {P : Params} {s : Sys} (h : TidyReach P s) :
    s.toCome.Sublist (s.accepted.filterMap decode) := by
  induction h with
  | init => exact List.Sublist.refl _
  | @step s s' a h hx _ ih =>
    cases comes h (exec_Step hx).2 with
    | less ha _ hs => rw [ha]; exact hs.trans ih
    | more p ha _ hs => rw [ha, hs, List.filterMap_append]; exact ih.append (List.Sublist.refl _)
    | call i f p t' ht ha _ hn hh hl =>
      rw [ha]
      refine List.Sublist.trans ?_ ih
      simp only [Sys.toCome, hh, hl]
      exact (flat_drop ht hn).append (List.Sublist.refl _)

theorem OneByOne.tidy {P : Params} {s : Sys} (h : OneByOne P s) : TidyReach P s := by
  induction h with
  | init => exact .init
  | step _ hx ht _ ih => exact ih.step hx ht

theorem OneByOne.few {P : Params} {s : Sys} (h : OneByOne P s) : s.handling.length ≤ 1 := by
  cases h with
  | init => exact Nat.zero_le _
  | step _ _ _ h1 => exact h1

/-- One packet at a time: the calls are in the order of arrival too. -/
theorem calls_order {P : Params} {s : Sys} (h : OneByOne P s) :
    (s.calls.map (·.2) ++ s.toCome).Sublist (s.accepted.filterMap decode) := by
  induction h with
  | init => exact List.Sublist.refl _
  | @step s s' a h hx _ _ ih =>
    cases comes h.tidy (exec_Step hx).2 with
    | less ha hc hs => rw [ha, hc]; exact ((List.Sublist.refl _).append hs).trans ih
    | more p ha hc hs =>
      rw [ha, hc, hs, List.filterMap_append, ← List.append_assoc]; exact ih.append (List.Sublist.refl _)
    | call i f p t' ht ha hc hn hh hl =>
      rw [ha, hc]
      obtain ⟨l1, l2, e1, e2⟩ := set_split ht
      have hfew := h.few
      simp only [Sys.handling, e1, List.flatMap_append, List.flatMap_cons, Thread.handling, List.length_append,
        List.length_cons, List.length_nil] at hfew
      have n1 : l1.flatMap Thread.handling = [] := List.length_eq_zero_iff.mp (by omega)
      have n2 : l2.flatMap Thread.handling = [] := List.length_eq_zero_iff.mp (by omega)
      simp only [Sys.toCome, Sys.handling, e1, List.flatMap_append, List.flatMap_cons, Thread.handling, n1, n2,
        List.nil_append, List.append_nil] at ih
      simp only [Sys.toCome, hh, hl, e2, List.flatMap_append, List.flatMap_cons, hn, n1, n2, List.nil_append,
        List.map_append, List.map_cons, List.map_nil, List.append_assoc]
      exact ih

/-! ### Announcements -/

/-- The goroutine is a pollLoop. -/
def wPl : Thread → Nat
  | .plSendTop | .plSend _ | .plPollTop | .plPoll _ | .plTop | .plWait _ _ | .plGc | .plGot _ => 1
  | _ => 0

/-- There is one pollLoop at most, and none before Start has a connection. -/
theorem pollers {P : Params} {s : Sys} (h : TidyReach P s) : total wPl s.threads ≤ 1 ∧
    (s.control = .listening → total wPl s.threads = 0) := by
  refine TidyReach.induct (P := P) (I := fun s => total wPl s.threads ≤ 1 ∧
    (s.control = .listening → total wPl s.threads = 0)) ?_ ?_ h
  · exact ⟨Nat.zero_le _, nofun⟩
  intro s s' _ ih _ hst hclean
  have key : ∀ {i : Nat} {t : Thread} (t' : Thread), s.threads[i]? = some t → wPl t' ≤ wPl t →
      total wPl (s.threads.set i t') ≤ 1 ∧ (s.control = .listening → total wPl (s.threads.set i t') = 0) := by
    intro i t t' ht hw
    have h1 := total_set wPl ht t'
    refine ⟨by have := ih.1; omega, fun hc => by have := ih.2 hc; omega⟩
  cases hst with
  | move ht m => exact key _ ht (by cases m <;> first | exact Nat.le_refl _ | exact Nat.zero_le _)
  | popPoll ht | popSend ht | popRecv ht | popReply ht | pushRecv ht | pushPoll ht
  | pushOwn ht | pushDmx ht | pushReply ht =>
    exact key _ ht (by first | exact Nat.le_refl _ | exact Nat.zero_le _)
  | pushSend ht hk => exact key _ ht (by cases hk <;> exact Nat.le_refl _)
  | arrive ht | lose ht | write ht | gc ht | ignore ht | reply ht | lock ht | unlock ht | tickAt ht
  | sendDMX ht | drop ht | reject ht | accept ht =>
    exact key _ ht (by first | exact Nat.le_refl _ | exact Nat.zero_le _)
  | call ht hh hc => exact key _ ht (by cases hc <;> exact Nat.le_refl _)
  | spawnReader ht | spawnHandler ht =>
    have := key .rlTop ht (by first | exact Nat.le_refl _ | exact Nat.zero_le _)
    simp only [Sys.goto, total_append]
    simpa [wPl] using this
  | start hc =>
    simp only [Sys.reset, Sys.makeChannels, Sys.resetTables] at hclean ⊢
    have hcl := idle_none (w := wPl) (by intro t h; cases t <;> first | rfl | cases h) (hclean (.inl (by split <;> simp)))
    split <;> exact ⟨by show total wPl s.threads ≤ 1; omega, fun _ => hcl⟩
  | startPanic | startFail =>
    simp only [Sys.reset, Sys.panic, Sys.resetTables]
    split <;> exact ih
  | listen hc =>
    have h2 := ih.2 hc
    have h3 : total wPl P.goroutines ≤ 1 := by
      simp only [Params.goroutines]; split <;> decide
    refine ⟨?_, nofun⟩
    simp only [total_append]
    omega
  | spawnCaller => simpa [wPl] using ih
  | close | disconnect | disconnectC | listenFail | stop | ended => exact ⟨ih.1, nofun⟩
  | panic | register | deregister | noRegister => exact ih

theorem learning_none (t : Thread) (h : wPl t = 0) : t.learning = [] := by
  cases t <;> first | rfl | cases h

/-- The announcements processed, and then those on their way. -/
def Sys.told (s : Sys) : List ArtPollReply := s.hist.filterMap Op.announced ++ s.news

theorem Sys.told_eq (s : Sys) : s.told = s.hist.filterMap Op.announced ++ (s.threads.flatMap Thread.learning ++
    (s.newest Chans.pollReply ++ (s.threads.flatMap Thread.announcing ++
    ((s.threads.flatMap Thread.parsing).filterMap announcement ++ ((s.newest Chans.recv).filterMap announcement ++
      (s.threads.flatMap Thread.bringing).filterMap announcement))))) := by
  simp only [Sys.told, Sys.news, Sys.line, List.filterMap_append, List.append_assoc]

/-- What a step does to them. -/
inductive Told (s s' : Sys) : Prop
  | less (ha : s'.accepted = s.accepted) (h : s'.told.Sublist s.told)
  | more (p : Payload) (ha : s'.accepted = s.accepted ++ [p]) (h : s'.told = s.told ++ [p].filterMap announcement)

theorem flat_or {f : Thread → List α} {l : List Thread} {i : Nat} {t : Thread} (h : l[i]? = some t) {t' : Thread}
    (ht : f t' = f t ∨ f t' = []) : ((l.set i t').flatMap f).Sublist (l.flatMap f) := by
  rcases ht with ht | ht
  · rw [flat_eq h ht.symm]; exact List.Sublist.refl _
  · exact flat_drop h ht

theorem flat_alone {f : Thread → List α} {l : List Thread} {i : Nat} {t : Thread} {a : α} (h : l[i]? = some t)
    (h1 : (l.flatMap f).length ≤ 1) (ht : f t = [a]) {t' : Thread} (ht' : f t' = []) :
    l.flatMap f = [a] ∧ (l.set i t').flatMap f = [] := by
  obtain ⟨l1, l2, hl, hs⟩ := set_split h
  rw [hs t', hl]
  rw [hl] at h1
  simp only [List.flatMap_append, List.flatMap_cons, ht, List.length_append, List.length_cons, List.length_nil] at h1
  have n1 : l1.flatMap f = [] := List.length_eq_zero_iff.mp (by omega)
  have n2 : l2.flatMap f = [] := List.length_eq_zero_iff.mp (by omega)
  simp [n1, n2, ht, ht']

theorem announcement_of {p : Payload} {q : AnyPacket} (hu : unmarshal p.data = .ok (some q, none)) :
    [p].filterMap announcement = (Thread.hStart q).announcing := by
  simp only [List.filterMap_cons, List.filterMap_nil, announcement, decode_of hu, Option.bind_some]
  cases q <;> rfl

theorem Sys.told_sub {u s : Sys} (h1 : u.hist.filterMap Op.announced = s.hist.filterMap Op.announced)
    (h2 : (u.threads.flatMap Thread.learning).Sublist (s.threads.flatMap Thread.learning))
    (h3 : (u.newest Chans.pollReply).Sublist (s.newest Chans.pollReply))
    (h4 : (u.threads.flatMap Thread.announcing).Sublist (s.threads.flatMap Thread.announcing))
    (h5 : (u.threads.flatMap Thread.parsing).Sublist (s.threads.flatMap Thread.parsing))
    (h6 : (u.newest Chans.recv).Sublist (s.newest Chans.recv))
    (h7 : (u.threads.flatMap Thread.bringing).Sublist (s.threads.flatMap Thread.bringing)) :
    u.told.Sublist s.told := by
  rw [Sys.told_eq, Sys.told_eq, h1]
  exact (List.Sublist.refl _).append (h2.append (h3.append (h4.append ((h5.filterMap _).append
    ((h6.filterMap _).append (h7.filterMap _))))))

theorem told {P : Params} {s s' : Sys} (hr : TidyReach P s) (hone : (s.threads.flatMap Thread.announcing).length ≤ 1)
    (hst : Step P s s') : Told s s' := by
  have hrl := (receivers hr).1.1
  have hrd := (receivers hr).1.2
  have hpl := (pollers hr).1
  have keep : ∀ {u : Sys} {i : Nat} {t t' : Thread}, s.threads[i]? = some t → u.threads = s.threads.set i t' →
      (t'.learning = t.learning ∨ t'.learning = []) → (t'.announcing = t.announcing ∨ t'.announcing = []) →
      (t'.parsing = t.parsing ∨ t'.parsing = []) → (t'.bringing = t.bringing ∨ t'.bringing = []) →
      u.newest Chans.pollReply = s.newest Chans.pollReply →
      u.newest Chans.recv = s.newest Chans.recv → u.accepted = s.accepted →
      u.hist.filterMap Op.announced = s.hist.filterMap Op.announced → Told s u := by
    intro u i t t' ht hu h1 h2 h3 h4 n1 n2 ha hh
    refine .less ha (Sys.told_sub hh ?_ (n1 ▸ List.Sublist.refl _) ?_ ?_ (n2 ▸ List.Sublist.refl _) ?_) <;> rw [hu]
    · exact flat_or ht h1
    · exact flat_or ht h2
    · exact flat_or ht h3
    · exact flat_or ht h4
  have same : ∀ {u : Sys}, u.threads = s.threads → u.newest Chans.pollReply = s.newest Chans.pollReply →
      u.newest Chans.recv = s.newest Chans.recv →
      u.accepted = s.accepted → u.hist.filterMap Op.announced = s.hist.filterMap Op.announced → Told s u := by
    intro u hu n1 n2 ha hh
    refine .less ha (Sys.told_sub hh ?_ (n1 ▸ List.Sublist.refl _) ?_ ?_ (n2 ▸ List.Sublist.refl _) ?_) <;> rw [hu] <;>
      exact List.Sublist.refl _
  cases hst with
  | move ht m =>
    cases m <;> exact keep ht rfl (.inl rfl) (.inl rfl) (.inl rfl) (.inl rfl) rfl rfl rfl rfl
  | popPoll ht hg | popSend ht hg | pushPoll ht hg | pushOwn ht hg | pushDmx ht hg =>
    exact keep ht rfl (.inl rfl) (.inl rfl) (.inl rfl) (.inl rfl) (newest_set hg rfl) (newest_set hg rfl) rfl rfl
  | pushSend ht hk hg =>
    exact keep ht rfl (.inl (by cases hk <;> rfl)) (.inl (by cases hk <;> rfl)) (.inl (by cases hk <;> rfl))
      (.inl (by cases hk <;> rfl)) (newest_set hg rfl) (newest_set hg rfl) rfl rfl
  | @popReply i g k ch p q ht hg hq =>
    refine .less rfl ?_
    obtain ⟨e1, e2⟩ := flat_single learning_none ht hpl rfl (.plGot p)
    obtain ⟨n1, n2⟩ := newest_top (f := Chans.pollReply) (ch' := { ch with pollReply := q }) hg
      (latest hr _ (List.mem_of_getElem? ht)).1
    have n2' : ((s.setCh g { ch with pollReply := q }).goto i (.plGot p)).newest Chans.pollReply = q := n2
    have n3 : ((s.setCh g { ch with pollReply := q }).goto i (.plGot p)).newest Chans.recv = s.newest Chans.recv :=
      newest_set hg rfl
    rw [Sys.told_eq, Sys.told_eq, n1, n2', n3, e1, hq]
    simp only [Sys.goto, Sys.setCh]
    rw [e2, flat_eq (f := Thread.announcing) (t' := .plGot p) ht rfl, flat_eq (f := Thread.parsing) (t' := .plGot p) ht rfl,
      flat_eq (f := Thread.bringing) (t' := .plGot p) ht rfl]
    exact List.Sublist.refl _
  | @pushReply i g p ch ht hg hl =>
    refine .less rfl ?_
    obtain ⟨e1, e2⟩ := flat_alone (f := Thread.announcing) (t' := .done) ht hone rfl rfl
    obtain ⟨n1, n2⟩ := newest_top (f := Chans.pollReply) (ch' := { ch with pollReply := ch.pollReply ++ [p] }) hg
      (latest hr _ (List.mem_of_getElem? ht))
    have n2' : ((s.setCh g { ch with pollReply := ch.pollReply ++ [p] }).goto i .done).newest Chans.pollReply =
      ch.pollReply ++ [p] := n2
    have n3 : ((s.setCh g { ch with pollReply := ch.pollReply ++ [p] }).goto i .done).newest Chans.recv =
      s.newest Chans.recv := newest_set hg rfl
    rw [Sys.told_eq, Sys.told_eq, n1, n2', n3, e1]
    simp only [Sys.goto, Sys.setCh]
    rw [e2, flat_eq (f := Thread.learning) (t' := .done) ht rfl, flat_eq (f := Thread.parsing) (t' := .done) ht rfl,
      flat_eq (f := Thread.bringing) (t' := .done) ht rfl]
    simp only [List.append_assoc, List.nil_append]
    exact List.Sublist.refl _
  | @popRecv i g ch p q ht hg hq =>
    refine .less rfl ?_
    obtain ⟨e1, e2⟩ := flat_single parsing_none ht hrl rfl (.rlParse p)
    obtain ⟨n1, n2⟩ := newest_top (f := Chans.recv) (ch' := { ch with recv := q }) hg
      (latest hr _ (List.mem_of_getElem? ht))
    have n2' : ((s.setCh g { ch with recv := q }).goto i (.rlParse p)).newest Chans.recv = q := n2
    have n3 : ((s.setCh g { ch with recv := q }).goto i (.rlParse p)).newest Chans.pollReply = s.newest Chans.pollReply :=
      newest_set hg rfl
    rw [Sys.told_eq, Sys.told_eq, n1, n2', n3, e1, hq]
    simp only [Sys.goto, Sys.setCh]
    rw [e2, flat_eq (f := Thread.announcing) (t' := .rlParse p) ht rfl,
      flat_eq (f := Thread.learning) (t' := .rlParse p) ht rfl, flat_eq (f := Thread.bringing) (t' := .rlParse p) ht rfl]
    have : List.filterMap announcement (p :: q) = List.filterMap announcement [p] ++ List.filterMap announcement q := by
      rw [← List.filterMap_append]; rfl
    rw [this]
    simp only [Thread.parsing, List.append_assoc, List.nil_append, List.filterMap_nil]
    exact List.Sublist.refl _
  | @pushRecv i g b p ch ht hg hl =>
    refine .less rfl ?_
    obtain ⟨e1, e2⟩ := flat_single bringing_none ht hrd rfl (.rdTop b)
    obtain ⟨n1, n2⟩ := newest_top (f := Chans.recv) (ch' := { ch with recv := ch.recv ++ [p] }) hg
      (latest hr _ (List.mem_of_getElem? ht))
    have n2' : ((s.setCh g { ch with recv := ch.recv ++ [p] }).goto i (.rdTop b)).newest Chans.recv = ch.recv ++ [p] := n2
    have n3 : ((s.setCh g { ch with recv := ch.recv ++ [p] }).goto i (.rdTop b)).newest Chans.pollReply =
      s.newest Chans.pollReply := newest_set hg rfl
    rw [Sys.told_eq, Sys.told_eq, n1, n2', n3, e1]
    simp only [Sys.goto, Sys.setCh]
    rw [e2, flat_eq (f := Thread.announcing) (t' := .rdTop b) ht rfl, flat_eq (f := Thread.learning) (t' := .rdTop b) ht rfl,
      flat_eq (f := Thread.parsing) (t' := .rdTop b) ht rfl]
    simp only [Thread.bringing, List.filterMap_append, List.filterMap_nil, List.append_nil]
    exact List.Sublist.refl _
  | @accept i b n src ht h hi =>
    refine .more ⟨src, copyInto (List.replicate n 0) b⟩ rfl ?_
    obtain ⟨e1, e2⟩ := flat_single bringing_none ht hrd rfl (.rdGot b ⟨src, copyInto (List.replicate n 0) b⟩)
    have n1 : ∀ α (f : Chans → List α), ({ s with accepted := s.accepted ++ [Payload.mk src (copyInto (List.replicate n 0) b)] }.goto i
      (.rdGot b ⟨src, copyInto (List.replicate n 0) b⟩)).newest f = s.newest f := fun _ _ => rfl
    rw [Sys.told_eq, Sys.told_eq, e1, n1, n1]
    simp only [Sys.goto]
    rw [e2, flat_eq (f := Thread.announcing) (t' := .rdGot b _) ht rfl, flat_eq (f := Thread.learning) (t' := .rdGot b _) ht rfl,
      flat_eq (f := Thread.parsing) (t' := .rdGot b _) ht rfl]
    simp only [Thread.bringing, List.filterMap_nil, List.append_nil, List.append_assoc]
  | @spawnHandler i p q ht hu =>
    refine .less rfl ?_
    obtain ⟨e1, e2⟩ := flat_single parsing_none ht hrl rfl .rlTop
    have n1 : ∀ α (f : Chans → List α), ({ s.goto i .rlTop with
      threads := (s.goto i .rlTop).threads ++ [.hStart q] } : Sys).newest f = s.newest f := fun _ _ => rfl
    rw [Sys.told_eq, Sys.told_eq, e1, n1, n1]
    simp only [Sys.goto, List.flatMap_append, List.flatMap_cons, List.flatMap_nil]
    rw [e2, flat_eq (f := Thread.announcing) (t' := .rlTop) ht rfl, flat_eq (f := Thread.learning) (t' := .rlTop) ht rfl,
      flat_eq (f := Thread.bringing) (t' := .rlTop) ht rfl]
    have hd : List.filterMap announcement (Thread.parsing (.rlParse p)) = (Thread.hStart q).announcing :=
      announcement_of hu
    rw [hd]
    simp only [Thread.bringing, Thread.learning, Thread.parsing,
      List.append_nil, List.append_assoc, List.filterMap_nil, List.nil_append]
    exact List.Sublist.refl _
  | reject ht | drop ht | lose ht =>
    exact keep ht rfl (.inr rfl) (.inr rfl) (.inr rfl) (.inr rfl) rfl rfl rfl rfl
  | @call i p h t' ht hh hc =>
    refine keep ht rfl (.inl (by cases hc <;> rfl)) ?_ (.inl (by cases hc <;> rfl)) (.inl (by cases hc <;> rfl))
      rfl rfl rfl rfl
    cases hc <;> first | exact .inl rfl | exact .inr rfl
  | arrive ht | write ht | lock ht | unlock ht | tickAt ht | sendDMX ht =>
    refine keep ht rfl (.inl rfl) (.inl rfl) (.inl rfl) (.inl rfl) rfl rfl rfl ?_
    simp [Sys.goto, Op.announced]
  | gc ht =>
    refine keep ht rfl (.inl rfl) (.inl rfl) (.inl rfl) (.inl rfl) rfl rfl rfl ?_
    simp [Sys.goto, Op.announced]
  | @ignore i p now ht hi =>
    refine .less rfl ?_
    obtain ⟨e1, e2⟩ := flat_single learning_none ht hpl rfl .plTop
    have n1 : ∀ α (f : Chans → List α), ({ s with hist := s.hist ++ [Op.reply p now] }.goto i
      .plTop).newest f = s.newest f := fun _ _ => rfl
    rw [Sys.told_eq, Sys.told_eq, e1, n1, n1]
    simp only [Sys.goto]
    rw [e2, flat_eq (f := Thread.announcing) (t' := .plTop) ht rfl, flat_eq (f := Thread.parsing) (t' := .plTop) ht rfl,
      flat_eq (f := Thread.bringing) (t' := .plTop) ht rfl]
    simp only [Thread.learning, List.filterMap_append, List.append_assoc, List.nil_append]
    exact List.Sublist.refl _
  | @reply i p now ht hi hl =>
    refine .less rfl ?_
    obtain ⟨e1, e2⟩ := flat_single learning_none ht hpl rfl .plTop
    have n1 : ∀ α (f : Chans → List α), ({ s with ctrl := s.ctrl.pollReply p now, hist := s.hist ++ [Op.reply p now] }.goto i
      .plTop).newest f = s.newest f := fun _ _ => rfl
    rw [Sys.told_eq, Sys.told_eq, e1, n1, n1]
    simp only [Sys.goto]
    rw [e2, flat_eq (f := Thread.announcing) (t' := .plTop) ht rfl, flat_eq (f := Thread.parsing) (t' := .plTop) ht rfl,
      flat_eq (f := Thread.bringing) (t' := .plTop) ht rfl]
    simp only [Thread.learning, List.filterMap_append, List.append_assoc, List.nil_append]
    exact List.Sublist.refl _
  | @spawnReader i ht =>
    refine .less rfl (Sys.told_sub rfl ?_ (List.Sublist.refl _) ?_ ?_ (List.Sublist.refl _) ?_) <;>
      simp only [Sys.goto, List.flatMap_append, List.flatMap_cons, List.flatMap_nil, Thread.learning, Thread.announcing,
        Thread.parsing, Thread.bringing, List.append_nil] <;> exact flat_or ht (.inl rfl)
  | start hc =>
    have hn : ∀ f : Chans → List ArtPollReply, f Chans.make = [] → ((s.reset P).makeChannels).newest f = [] := by
      intro f hf; simp only [Sys.newest, Sys.makeChannels, List.getLast?_concat]; exact hf
    have hn' : ((s.reset P).makeChannels).newest Chans.recv = [] := by
      simp only [Sys.newest, Sys.makeChannels, List.getLast?_concat]; rfl
    have ht : ((s.reset P).makeChannels).threads = s.threads := by
      simp only [Sys.reset, Sys.makeChannels, Sys.resetTables]; split <;> rfl
    refine .less ?_ (Sys.told_sub ?_ ?_ ?_ ?_ ?_ ?_ ?_)
    · simp only [Sys.reset, Sys.makeChannels, Sys.resetTables]; split <;> rfl
    · simp only [Sys.reset, Sys.makeChannels, Sys.resetTables]; split <;> simp [Op.announced]
    · rw [ht]; exact List.Sublist.refl _
    · rw [hn _ rfl]; exact List.nil_sublist _
    · rw [ht]; exact List.Sublist.refl _
    · rw [ht]; exact List.Sublist.refl _
    · rw [hn']; exact List.nil_sublist _
    · rw [ht]; exact List.Sublist.refl _
  | startPanic | startFail =>
    simp only [Sys.reset, Sys.panic, Sys.resetTables]
    split <;> refine same rfl rfl rfl rfl ?_ <;> simp [Op.announced]
  | listen hc =>
    have hg : P.goroutines.flatMap Thread.learning = [] ∧ P.goroutines.flatMap Thread.announcing = [] ∧
        P.goroutines.flatMap Thread.parsing = [] ∧ P.goroutines.flatMap Thread.bringing = [] := by
      simp only [Params.goroutines]; split <;> exact ⟨rfl, rfl, rfl, rfl⟩
    refine .less rfl (Sys.told_sub rfl ?_ (List.Sublist.refl _) ?_ ?_ (List.Sublist.refl _) ?_) <;>
      simp only [List.flatMap_append, hg.1, hg.2.1, hg.2.2.1, hg.2.2.2, List.append_nil] <;> exact List.Sublist.refl _
  | spawnCaller =>
    refine .less rfl (Sys.told_sub rfl ?_ (List.Sublist.refl _) ?_ ?_ (List.Sublist.refl _) ?_) <;>
      simp only [List.flatMap_append, List.flatMap_cons, List.flatMap_nil, Thread.learning, Thread.announcing,
        Thread.parsing, Thread.bringing, List.append_nil] <;> exact List.Sublist.refl _
  | close hc h hg hd => exact same rfl (newest_set hg rfl) (newest_set hg rfl) rfl rfl
  | panic | listenFail | stop | disconnect | disconnectC | ended | register | deregister | noRegister =>
    exact same rfl rfl rfl rfl rfl

theorem InTurn.tidy {P : Params} {s : Sys} (h : InTurn P s) : TidyReach P s := by
  induction h with
  | init => exact .init
  | step _ hx ht _ ih => exact ih.step hx ht

theorem InTurn.few {P : Params} {s : Sys} (h : InTurn P s) : (s.threads.flatMap Thread.announcing).length ≤ 1 := by
  cases h with
  | init => exact Nat.zero_le _
  | step _ _ _ h1 => exact h1

/-- One announcement at a time: they are processed in the order of arrival. -/
theorem told_order {P : Params} {s : Sys} (h : InTurn P s) : s.told.Sublist (s.accepted.filterMap announcement) := by
  induction h with
  | init => exact List.Sublist.refl _
  | @step s s' a h hx _ _ ih =>
    cases told h.tidy h.few (exec_Step hx).2 with
    | less ha hs => rw [ha]; exact hs.trans ih
    | more p ha hs => rw [ha, hs, List.filterMap_append]; exact ih.append (List.Sublist.refl _)

end Verif.Conc
