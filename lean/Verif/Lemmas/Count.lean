import Verif.Lemmas.ConcWire
import Verif.Lemmas.ConcRead
import Verif.Spec.Count
/-
The number of goroutines.
-/
namespace Verif.Conc
open Packet Code Artnet

/-- Loops; recvLoop counts twice until it has begun the reader. -/
def wLoop : Thread → Nat
  | .rlInit => 2
  | .hStart _ | .hPollTop _ | .hPoll _ _ | .hReplyTop _ | .hReply _ _ | .caller _ _ | .done => 0
  | _ => 1

theorem idle_loops {l : List Thread} (h : ∀ t ∈ l, t.idle = true) : total wLoop l = 0 := by
  induction l with
  | nil => rfl
  | cons a l ih =>
    have h1 : wLoop a = 0 := by
      have := h a (List.mem_cons_self ..)
      cases a <;> first | rfl | cases this
    rw [total_cons, h1, ih fun t ht => h t (List.mem_cons_of_mem _ ht)]

/-- The loops that one Start begins. -/
def loopsOf (P : Params) : Nat := if P.controller then 6 else 4

theorem goroutines_loops (P : Params) : total wLoop P.goroutines = loopsOf P := by
  simp only [Params.goroutines, loopsOf]; split <;> simp_all [wLoop]

theorem loops_tidy {P : Params} {s : Sys} (h : TidyReach P s) : total wLoop s.threads ≤ loopsOf P ∧
    (s.control = .listening → total wLoop s.threads = 0) := by
  refine TidyReach.induct (P := P) (I := fun s => total wLoop s.threads ≤ loopsOf P ∧
    (s.control = .listening → total wLoop s.threads = 0)) ?_ ?_ h
  · exact ⟨Nat.zero_le _, nofun⟩
  intro s s' _ ih _ hst hclean
  have key : ∀ {i : Nat} {t : Thread} (t' : Thread), s.threads[i]? = some t → wLoop t' ≤ wLoop t →
      total wLoop (s.threads.set i t') ≤ loopsOf P ∧ (s.control = .listening → total wLoop (s.threads.set i t') = 0) := by
    intro i t t' ht hw
    have h1 := total_set wLoop ht t'
    refine ⟨by have := ih.1; omega, fun hc => by have := ih.2 hc; omega⟩
  cases hst with
  | move ht m => exact key _ ht (by cases m <;> first | exact Nat.le_refl _ | exact Nat.zero_le _)
  | popPoll ht | popSend ht | popRecv ht | popReply ht | pushRecv ht | pushPoll ht
  | pushOwn ht | pushDmx ht | pushReply ht =>
    exact key _ ht (by first | exact Nat.le_refl _ | exact Nat.zero_le _)
  | pushSend ht hk => exact key _ ht (by cases hk <;> exact Nat.le_refl _)
  | arrive ht | lose ht | write ht | gc ht | ignore ht | reply ht | lock ht | unlock ht | tickAt ht
  | sendDMX ht | drop ht | reject ht | accept ht =>
    exact key _ ht (by first | exact Nat.le_refl _ | exact Nat.zero_le _)
  | call ht hh hc => exact key _ ht (by cases hc <;> exact Nat.le_refl _)
  | spawnReader ht =>
    have h1 := total_set wLoop ht .rlTop
    have h2 : wLoop .rlInit = 2 := rfl
    have h3 : wLoop .rlTop = 1 := rfl
    simp only [Sys.goto, total_append, total_cons, total_nil]
    simp only [wLoop] at h1 ⊢
    exact ⟨by have := ih.1; omega, fun hc => by have := ih.2 hc; omega⟩
  | spawnHandler ht =>
    have := key .rlTop ht (by first | exact Nat.le_refl _ | exact Nat.zero_le _)
    simp only [Sys.goto, total_append]
    simpa [wLoop] using this
  | start hc =>
    simp only [Sys.reset, Sys.makeChannels, Sys.resetTables] at hclean ⊢
    have hcl := idle_loops (hclean (.inl (by split <;> simp)))
    split <;> exact ⟨by show total wLoop s.threads ≤ _; omega, fun _ => hcl⟩
  | startPanic | startFail =>
    simp only [Sys.reset, Sys.panic, Sys.resetTables]
    split <;> exact ih
  | listen hc =>
    have h2 := ih.2 hc
    have h3 := goroutines_loops P
    refine ⟨?_, nofun⟩
    simp only [total_append]
    omega
  | spawnCaller => simpa [wLoop] using ih
  | close | disconnect | disconnectC | listenFail | stop | ended => exact ⟨ih.1, nofun⟩
  | panic | register | deregister | noRegister => exact ih

/-- Under every schedule the loops are those begun by the calls of Start that could listen. -/
theorem loops_all {P : Params} {s : Sys} (h : Reach P s) : total wLoop s.threads ≤ loopsOf P * s.conns.length := by
  refine Reach.induct (P := P) (I := fun s => total wLoop s.threads ≤ loopsOf P * s.conns.length) ?_ ?_ h
  · exact Nat.zero_le _
  intro s s' _ ih _ hst
  have key : ∀ {i : Nat} {t : Thread} (t' : Thread), s.threads[i]? = some t → wLoop t' ≤ wLoop t →
      total wLoop (s.threads.set i t') ≤ loopsOf P * s.conns.length := by
    intro i t t' ht hw
    have h1 := total_set wLoop ht t'
    omega
  cases hst with
  | move ht m => exact key _ ht (by cases m <;> first | exact Nat.le_refl _ | exact Nat.zero_le _)
  | popPoll ht | popSend ht | popRecv ht | popReply ht | pushRecv ht | pushPoll ht
  | pushOwn ht | pushDmx ht | pushReply ht =>
    exact key _ ht (by first | exact Nat.le_refl _ | exact Nat.zero_le _)
  | pushSend ht hk => exact key _ ht (by cases hk <;> exact Nat.le_refl _)
  | arrive ht | lose ht | write ht | gc ht | ignore ht | reply ht | lock ht | unlock ht | tickAt ht
  | sendDMX ht | drop ht | reject ht | accept ht =>
    exact key _ ht (by first | exact Nat.le_refl _ | exact Nat.zero_le _)
  | call ht hh hc => exact key _ ht (by cases hc <;> exact Nat.le_refl _)
  | spawnReader ht =>
    have h1 := total_set wLoop ht .rlTop
    simp only [Sys.goto, total_append, total_cons, total_nil]
    simp only [wLoop] at h1 ⊢
    omega
  | spawnHandler ht =>
    have := key .rlTop ht (by first | exact Nat.le_refl _ | exact Nat.zero_le _)
    simp only [Sys.goto, total_append]
    simpa [wLoop] using this
  | start hc | startPanic | startFail =>
    simp only [Sys.reset, Sys.makeChannels, Sys.panic, Sys.resetTables]
    split <;> exact ih
  | listen hc =>
    have h3 := goroutines_loops P
    simp only [total_append, List.length_append, List.length_singleton, Nat.mul_add, Nat.mul_one]
    omega
  | disconnect | disconnectC =>
    have : s.closeConn.length = s.conns.length := by
      simp only [Sys.closeConn]; split <;> simp
    simpa only [this] using ih
  | spawnCaller => simpa [wLoop] using ih
  | _ => exact ih

theorem total_same (f : α → Nat) {l : List α} {i : Nat} {a b : α} (h : l[i]? = some a) (hb : f b = f a) :
    total f (l.set i b) = total f l := by
  have := total_set f h b
  omega

theorem countP_total (f : α → Bool) (w : α → Nat) (h : ∀ a, f a = true → 1 ≤ w a) (l : List α) :
    l.countP f ≤ total w l := by
  induction l with
  | nil => exact Nat.le_refl _
  | cons a l ih =>
    rw [List.countP_cons, total_cons]
    split
    · have := h a (by assumption); omega
    · omega

theorem isLoop_w (t : Thread) (h : t.isLoop = true) : 1 ≤ wLoop t := by
  cases t <;> first | exact Nat.le_refl 1 | exact Nat.le_succ 1 | cases h

/-- Handlers and payloads on their way to one. -/
def wIn : Thread → Nat
  | .hStart _ | .hPollTop _ | .hPoll _ _ | .hReplyTop _ | .hReply _ _ => 1
  | .rdGot _ _ | .rdPush _ _ _ | .rlParse _ => 1
  | _ => 0

def wRecv (c : Chans) : Nat := c.recv.length

theorem handlers_le {P : Params} {s : Sys} (h : Reach P s) :
    total wIn s.threads + total wRecv s.chans ≤ s.accepted.length := by
  refine Reach.induct (P := P) (I := fun s => total wIn s.threads + total wRecv s.chans ≤ s.accepted.length) ?_ ?_ h
  · exact Nat.zero_le _
  intro s s' _ ih _ hst
  have key : ∀ {i : Nat} {t : Thread} (t' : Thread), s.threads[i]? = some t → wIn t' ≤ wIn t →
      total wIn (s.threads.set i t') + total wRecv s.chans ≤ s.accepted.length := by
    intro i t t' ht hw
    have h1 := total_set wIn ht t'
    omega
  cases hst with
  | move ht m => exact key _ ht (by cases m <;> first | exact Nat.le_refl _ | exact Nat.zero_le _)
  | @popRecv i g ch p q ht hg hq =>
    have h1 := total_set wIn ht (.rlParse p)
    have h2 := total_set wRecv hg { ch with recv := q }
    simp only [Sys.goto, Sys.setCh]
    simp only [wIn, wRecv, hq, List.length_cons] at h1 h2 ⊢
    omega
  | @pushRecv i g b p ch ht hg hl =>
    have h1 := total_set wIn ht (.rdTop b)
    have h2 := total_set wRecv hg { ch with recv := ch.recv ++ [p] }
    simp only [Sys.goto, Sys.setCh]
    simp only [wIn, wRecv, List.length_append, List.length_singleton] at h1 h2 ⊢
    omega
  | popPoll ht hg | popSend ht hg | popReply ht hg | pushPoll ht hg | pushOwn ht hg | pushDmx ht hg
  | pushReply ht hg =>
    simp only [Sys.goto, Sys.setCh]
    rw [total_same wRecv hg (by rfl)]
    exact key _ ht (by first | exact Nat.le_refl _ | exact Nat.zero_le _)
  | pushSend ht hk hg =>
    simp only [Sys.goto, Sys.setCh]
    rw [total_same wRecv hg (by rfl)]
    exact key _ ht (by cases hk <;> exact Nat.le_refl _)
  | close hc h hg =>
    simp only [Sys.setCh]
    rw [total_same wRecv hg (by rfl)]
    exact ih
  | arrive ht | lose ht | write ht | gc ht | ignore ht | reply ht | lock ht | unlock ht | tickAt ht
  | sendDMX ht | drop ht | reject ht =>
    exact key _ ht (by first | exact Nat.le_refl _ | exact Nat.zero_le _)
  | accept ht =>
    have h1 := total_set wIn ht
    simp only [Sys.goto, List.length_append, List.length_singleton]
    have := h1 (.rdGot ‹_› ⟨‹_›, copyInto (List.replicate ‹Nat› 0) ‹_›⟩)
    simp only [wIn] at this ⊢
    omega
  | call ht hh hc => exact key _ ht (by cases hc <;> first | exact Nat.le_refl _ | exact Nat.zero_le _)
  | spawnReader ht =>
    have := key .rlTop ht (by first | exact Nat.le_refl _ | exact Nat.zero_le _)
    simp only [Sys.goto, total_append]
    simpa [wIn] using this
  | spawnHandler ht =>
    have h1 := total_set wIn ht .rlTop
    simp only [Sys.goto, total_append, total_cons, total_nil]
    simp only [wIn] at h1 ⊢
    omega
  | start =>
    simp only [Sys.reset, Sys.makeChannels, Sys.resetTables]
    split <;> (simp only [total_append]; simpa [wRecv, Chans.make] using ih)
  | startPanic | startFail =>
    simp only [Sys.reset, Sys.panic, Sys.resetTables]
    split <;> exact ih
  | listen hc =>
    have h3 : total wIn P.goroutines = 0 := by
      simp only [Params.goroutines]; split <;> rfl
    simp only [total_append]
    omega
  | spawnCaller => simpa [wIn] using ih
  | _ => exact ih

theorem isHandler_w (t : Thread) (h : t.isHandler = true) : 1 ≤ wIn t := by
  cases t <;> first | exact Nat.le_refl 1 | cases h

end Verif.Conc
