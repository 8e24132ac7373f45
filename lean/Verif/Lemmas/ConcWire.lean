import Verif.Lemmas.ConcTidy
/-
The order of the datagrams on the wire.
-/
namespace Verif.Conc
open Packet Code Artnet

/-- The goroutine is a sendLoop. -/
def wSl : Thread → Nat
  | .slTop | .slWait _ | .slCheck _ | .slWrite _ => 1
  | _ => 0

theorem set_split {l : List α} {i : Nat} {a : α} (h : l[i]? = some a) :
    ∃ l1 l2, l = l1 ++ a :: l2 ∧ ∀ b, l.set i b = l1 ++ b :: l2 := by
  induction l generalizing i with
  | nil => simp at h
  | cons c l ih =>
    cases i with
    | zero => simp at h; subst h; exact ⟨[], l, rfl, fun _ => rfl⟩
    | succ i =>
      obtain ⟨l1, l2, h1, h2⟩ := ih (i := i) (by simpa using h)
      exact ⟨c :: l1, l2, by rw [h1]; rfl, fun b => by simp [h2]⟩

theorem writing_nil {t : Thread} (h : wSl t = 0) : t.writing = [] := by
  cases t <;> first | rfl | cases h

theorem flat_nil {l : List Thread} (h : total wSl l = 0) : l.flatMap Thread.writing = [] := by
  induction l with
  | nil => rfl
  | cons a l ih =>
    simp only [total_cons] at h
    rw [List.flatMap_cons, writing_nil (by omega), ih (by omega)]
    rfl

/-- The only sendLoop is the one that moves. -/
theorem flat_only {l : List Thread} {i : Nat} {t : Thread} (h : l[i]? = some t) (h1 : total wSl l ≤ 1)
    (ht : wSl t = 1) (t' : Thread) :
    l.flatMap Thread.writing = t.writing ∧ (l.set i t').flatMap Thread.writing = t'.writing := by
  obtain ⟨l1, l2, hl, hs⟩ := set_split h
  rw [hs t', hl]
  rw [hl] at h1
  simp only [total_append, total_cons] at h1
  simp [flat_nil (l := l1) (by omega), flat_nil (l := l2) (by omega)]

theorem flat_same {l : List Thread} {i : Nat} {t : Thread} (h : l[i]? = some t) {t' : Thread}
    (ht : t.writing = t'.writing) : (l.set i t').flatMap Thread.writing = l.flatMap Thread.writing := by
  obtain ⟨l1, l2, hl, hs⟩ := set_split h
  rw [hs t', hl]
  simp [ht]

theorem idle_total {l : List Thread} (h : ∀ t ∈ l, t.idle = true) : total wSl l = 0 := by
  induction l with
  | nil => rfl
  | cons a l ih =>
    have h1 : wSl a = 0 := by
      have := h a (List.mem_cons_self ..)
      cases a <;> first | rfl | cases this
    rw [total_cons, h1, ih fun t ht => h t (List.mem_cons_of_mem _ ht)]

/-- There is one sendLoop at most, and none before Start has a connection. -/
theorem senders {P : Params} {s : Sys} (h : TidyReach P s) : total wSl s.threads ≤ 1 ∧
    (s.control = .listening → total wSl s.threads = 0) := by
  refine TidyReach.induct (P := P) (I := fun s => total wSl s.threads ≤ 1 ∧
    (s.control = .listening → total wSl s.threads = 0)) ?_ ?_ h
  · exact ⟨Nat.zero_le _, nofun⟩
  intro s s' _ ih _ hst hclean
  have key : ∀ {i : Nat} {t : Thread} (t' : Thread), s.threads[i]? = some t → wSl t' ≤ wSl t →
      total wSl (s.threads.set i t') ≤ 1 ∧ (s.control = .listening → total wSl (s.threads.set i t') = 0) := by
    intro i t t' ht hw
    have h1 := total_set wSl ht t'
    refine ⟨by have := ih.1; omega, fun hc => by have := ih.2 hc; omega⟩
  cases hst with
  | move ht m => exact key _ ht (by cases m <;> first | exact Nat.le_refl _ | exact Nat.zero_le _)
  | popPoll ht | popSend ht | popRecv ht | popReply ht | pushRecv ht | pushPoll ht
  | pushOwn ht | pushDmx ht | pushReply ht =>
    exact key _ ht (by first | exact Nat.le_refl _ | exact Nat.zero_le _)
  | pushSend ht hk => exact key _ ht (by cases hk <;> exact Nat.le_refl _)
  | arrive ht | lose ht | write ht | gc ht | ignore ht | reply ht | lock ht | unlock ht | tickAt ht
  | sendDMX ht | drop ht | reject ht | accept ht =>
    exact key _ ht (by first | exact Nat.le_refl _ | exact Nat.zero_le _)
  | call ht hh hc => exact key _ ht (by cases hc <;> exact Nat.le_refl _)
  | spawnReader ht | spawnHandler ht =>
    have := key .rlTop ht (by first | exact Nat.le_refl _ | exact Nat.zero_le _)
    simp only [Sys.goto, total_append]
    simpa [wSl] using this
  | start hc =>
    simp only [Sys.reset, Sys.makeChannels, Sys.resetTables] at hclean ⊢
    have hcl := idle_total (hclean (.inl (by split <;> simp)))
    split <;> exact ⟨by show total wSl s.threads ≤ 1; omega, fun _ => hcl⟩
  | startPanic | startFail =>
    simp only [Sys.reset, Sys.panic, Sys.resetTables]
    split <;> exact ih
  | listen hc =>
    have h2 := ih.2 hc
    have h3 : total wSl P.goroutines = 1 := by
      simp only [Params.goroutines]; split <;> rfl
    refine ⟨?_, nofun⟩
    simp only [total_append]
    omega
  | spawnCaller => simpa [wSl] using ih
  | close | disconnect | disconnectC | listenFail | stop | ended => exact ⟨ih.1, nofun⟩
  | panic | register | deregister | noRegister => exact ih

theorem taken_set {l : List Chans} {g : Nat} {ch ch' : Chans} (h : l[g]? = some ch) (ht : ch'.taken = ch.taken) :
    (l.set g ch').flatMap Chans.taken = l.flatMap Chans.taken := by
  induction l generalizing g with
  | nil => rfl
  | cons a l ih =>
    cases g with
    | zero => simp at h; subst h; simp [ht]
    | succ g => simp only [List.set_cons_succ, List.flatMap_cons]; rw [ih (by simpa using h)]

theorem taken_last {l : List Chans} {g : Nat} {ch ch' : Chans} {p : Payload} (h : l[g]? = some ch)
    (hg : g + 1 = l.length) (ht : ch'.taken = ch.taken ++ [p]) :
    (l.set g ch').flatMap Chans.taken = l.flatMap Chans.taken ++ [p] := by
  induction l generalizing g with
  | nil => cases h
  | cons a l ih =>
    cases g with
    | zero =>
      simp at h hg
      subst h
      have : l = [] := by simpa using hg.symm
      subst this
      simp [ht]
    | succ g =>
      simp only [List.set_cons_succ, List.flatMap_cons]
      rw [ih (by simpa using h) (by simpa using hg), List.append_assoc]

/-- The datagrams on the wire are, in their order, among those taken from the queues. -/
theorem wire_order {P : Params} {s : Sys} (h : TidyReach P s) :
    (s.wire ++ s.threads.flatMap Thread.writing).Sublist (s.chans.flatMap Chans.taken) := by
  refine TidyReach.induct (P := P) (I := fun s =>
    (s.wire ++ s.threads.flatMap Thread.writing).Sublist (s.chans.flatMap Chans.taken)) ?_ ?_ h
  · exact List.Sublist.refl _
  intro s s' hr ih _ hst _
  have hsl := (senders hr).1
  cases hst with
  | @move i t t' ht m =>
    have hm : t.writing = t'.writing ∨ (wSl t = 1 ∧ t'.writing = []) := by
      cases m <;> first | exact .inl rfl | exact .inr ⟨rfl, rfl⟩
    simp only [Sys.goto]
    rcases hm with hm | ⟨hm, hn⟩
    · rw [flat_same ht hm]; exact ih
    · rw [(flat_only ht hsl hm t').2, hn, List.append_nil]
      exact (List.sublist_append_left _ _).trans ih
  | popPoll ht hg | popRecv ht hg | popReply ht hg | pushRecv ht hg | pushPoll ht hg
  | pushOwn ht hg | pushDmx ht hg | pushReply ht hg =>
    simp only [Sys.goto, Sys.setCh]
    rw [flat_same ht (by rfl), taken_set hg (by rfl)]
    exact ih
  | pushSend ht hk hg =>
    simp only [Sys.goto, Sys.setCh]
    rw [flat_same ht (by cases hk <;> rfl), taken_set hg (by rfl)]
    exact ih
  | @popSend i g ch p q ht hg hq =>
    simp only [Sys.goto, Sys.setCh]
    obtain ⟨e1, e2⟩ := flat_only ht hsl rfl (.slCheck p)
    rw [e1] at ih
    rw [e2, taken_last hg (latest hr _ (List.mem_of_getElem? ht)) (by rfl)]
    simp only [Thread.writing, List.append_nil] at ih ⊢
    exact ih.append (List.Sublist.refl [p])
  | @write i p k ht hk ho =>
    simp only [Sys.goto]
    obtain ⟨e1, e2⟩ := flat_only ht hsl rfl .slTop
    rw [e1] at ih
    rw [e2]
    simpa [Thread.writing] using ih
  | arrive ht | lose ht | gc ht | ignore ht | reply ht | lock ht | unlock ht | tickAt ht
  | sendDMX ht | drop ht | reject ht | accept ht =>
    simp only [Sys.goto]
    rw [flat_same ht (by rfl)]
    exact ih
  | call ht hh hc =>
    simp only [Sys.goto]
    rw [flat_same ht (by cases hc <;> rfl)]
    exact ih
  | spawnReader ht | spawnHandler ht =>
    simp only [Sys.goto, List.flatMap_append]
    rw [flat_same ht (by rfl)]
    simpa [Thread.writing] using ih
  | start hc =>
    simp only [Sys.reset, Sys.makeChannels, Sys.resetTables]
    split <;> simpa [Chans.make] using ih
  | startPanic | startFail =>
    simp only [Sys.reset, Sys.panic, Sys.resetTables]
    split <;> exact ih
  | listen hc =>
    have h3 : P.goroutines.flatMap Thread.writing = [] := by
      simp only [Params.goroutines]; split <;> rfl
    simp only [List.flatMap_append, h3, List.append_nil]
    exact ih
  | spawnCaller => simpa [Thread.writing] using ih
  | close hc h hg hd =>
    simp only [Sys.setCh]
    rw [taken_set hg (by rfl)]
    exact ih
  | panic | listenFail | stop | disconnect | disconnectC | ended | register | deregister | noRegister =>
    exact ih

end Verif.Conc
