import Verif.Lemmas.Conc
import Verif.Spec.Conc
/-
Induction over executions, counting over goroutines and channels, and the conservation invariants.
-/
namespace Verif.Conc
open Packet Code Artnet

theorem execs_append (P : Params) (s : Sys) (as bs : List Act) :
    s.execs P (as ++ bs) = (s.execs P as).bind fun s => s.execs P bs := by
  induction as generalizing s with
  | nil => rfl
  | cons a as ih =>
    simp only [List.cons_append, Sys.execs]
    cases s.exec P a with
    | none => rfl
    | some s' => exact ih s'

theorem Reach.init (P : Params) : Reach P (Sys.init P) := ⟨[], rfl⟩

theorem Reach.execs {P : Params} {s s' : Sys} {as} (h : Reach P s) (hs : s.execs P as = some s') :
    Reach P s' := by
  obtain ⟨bs, hb⟩ := h
  exact ⟨bs ++ as, by rw [execs_append, hb]; exact hs⟩

theorem Reach.exec {P : Params} {s s' : Sys} {a} (h : Reach P s) (hs : s.exec P a = some s') :
    Reach P s' := h.execs (as := [a]) (by simp [Sys.execs, hs])

/-- Induction over the steps of an execution. -/
theorem Reach.induct {P : Params} {I : Sys → Prop} (h0 : I (Sys.init P))
    (hs : ∀ s s', Reach P s → I s → s.crashed = none → Step P s s' → I s') {s : Sys} (h : Reach P s) : I s := by
  obtain ⟨as, ha⟩ := h
  suffices ∀ as s0, Reach P s0 → I s0 → s0.execs P as = some s → I s from
    this as _ (Reach.init P) h0 ha
  intro as
  induction as with
  | nil => intro s0 _ hi he; cases he; exact hi
  | cons a as ih =>
    intro s0 hr hi he
    simp only [Sys.execs] at he
    cases hx : s0.exec P a with
    | none => rw [hx] at he; cases he
    | some s1 =>
      rw [hx] at he
      obtain ⟨hc, hst⟩ := exec_Step hx
      exact ih s1 (hr.exec hx) (hs s0 s1 hr hi hc hst) he

/-- The sum of `f` over a list. -/
def total (f : α → Nat) (l : List α) : Nat := (l.map f).sum

@[simp] theorem total_nil (f : α → Nat) : total f [] = 0 := rfl
@[simp] theorem total_cons (f : α → Nat) (a l) : total f (a :: l) = f a + total f l := rfl
@[simp] theorem total_append (f : α → Nat) (l m) : total f (l ++ m) = total f l + total f m := by
  simp [total]

theorem total_set (f : α → Nat) {l : List α} {i : Nat} {a : α} (h : l[i]? = some a) (b : α) :
    total f (l.set i b) + f a = total f l + f b := by
  induction l generalizing i with
  | nil => simp at h
  | cons c l ih =>
    cases i with
    | zero => simp at h; subst h; simp; omega
    | succ i =>
      have := ih (i := i) (by simpa using h)
      simp; omega

theorem total_le_of_mem (f : α → Nat) {l : List α} {a : α} (h : a ∈ l) : f a ≤ total f l := by
  induction l with
  | nil => cases h
  | cons b l ih =>
    rcases List.mem_cons.mp h with rfl | h
    · simp
    · have := ih h; simp; omega

theorem total_ge (f : α → Nat) {l : List α} {i : Nat} {a : α} (h : l[i]? = some a) : f a ≤ total f l := 
  total_le_of_mem f (List.mem_of_getElem? h)

theorem total_sub (f : α → Nat) {l : List α} {i : Nat} {a : α} (h : l[i]? = some a) (b : α) :
    total f (l.set i b) = total f l - f a + f b := by
  have := total_set f h b
  have := total_ge f h
  omega

theorem count_flatMap_total [BEq β] (x : β) (f : α → List β) (l : List α) :
    (l.flatMap f).count x = total (fun a => (f a).count x) l := by
  induction l with
  | nil => rfl
  | cons a l ih => simp [List.count_append, ih]

theorem total_le_total {f g : α → Nat} {l : List α} (h : ∀ a ∈ l, f a ≤ g a) : total f l ≤ total g l := by
  induction l with
  | nil => simp
  | cons a l ih =>
    have := h a (by simp)
    have := ih (fun b hb => h b (by simp [hb]))
    simp; omega

/-- What goroutine and channel contribute to the count of a decoded packet. -/
def wThread (x : AnyPacket) (t : Thread) : Nat :=
  (t.carried.filterMap decode).count x + t.handling.count x

def wChan (x : AnyPacket) (c : Chans) : Nat := (c.recv.filterMap decode).count x

theorem goroutines_weightless (P : Params) (f : Thread → Nat) (h1 : f .prInit = 0) (h2 : f .rlInit = 0)
    (h3 : f .slTop = 0) (h4 : f .plSendTop = 0) (h5 : f .duInit = 0) : total f P.goroutines = 0 := by
  simp only [Params.goroutines]
  split <;> simp [h1, h2, h3, h4, h5]

/-- The decoded packets accepted are those on their way, those with a call-back called, and those without
call-back. -/
theorem conservation {P : Params} {s : Sys} (h : Reach P s) (x : AnyPacket) :
    (s.accepted.filterMap decode).count x =
      total (wThread x) s.threads + total (wChan x) s.chans + (s.calls.map (·.2)).count x +
        s.dropped.count x := by
  refine Reach.induct (P := P) (I := fun s => (s.accepted.filterMap decode).count x =
      total (wThread x) s.threads + total (wChan x) s.chans + (s.calls.map (·.2)).count x +
        s.dropped.count x) ?_ ?_ h
  · rfl
  intro s s' _ ih _ hst
  cases hst with
  | move ht m =>
    simp only [Sys.goto, total_sub _ ht]
    have h1 := total_ge (wThread x) ht
    have hw := fun t t' (m : Move P s t t') => show wThread x t = wThread x t' by cases m <;> rfl
    rw [hw _ _ m] at *
    omega
  | spawnReader ht | arrive ht | lose ht | write ht | gc ht | ignore ht | reply ht | lock ht
  | unlock ht | tickAt ht | sendDMX ht =>
    have h1 := total_ge (wThread x) ht
    simp only [Sys.goto, total_sub _ ht, total_append]
    simp [wThread, Thread.carried, Thread.handling] at *
    omega
  | spawnHandler ht hu =>
    have h1 := total_ge (wThread x) ht
    simp only [Sys.goto, total_sub _ ht, total_append]
    simp [wThread, Thread.carried, Thread.handling, decode, hu] at *
    omega
  | @reject i p r ht hu hn =>
    have hd : decode p = none := by
      simp only [decode, hu]
      split
      · rename_i h; cases h; exact absurd rfl (hn _)
      · rfl
    have h1 := total_ge (wThread x) ht
    simp only [Sys.goto, total_sub _ ht]
    simp [wThread, Thread.carried, Thread.handling, hd] at *
    omega
  | accept ht | drop ht =>
    have h1 := total_ge (wThread x) ht
    simp only [Sys.goto, total_sub _ ht, List.filterMap_append, List.count_append]
    simp [wThread, Thread.carried, Thread.handling] at *
    omega
  | call ht hh hc =>
    have h1 := total_ge (wThread x) ht
    simp only [Sys.goto, total_sub _ ht, List.map_append, List.count_append]
    have hw : ∀ h p t', Calls P h p t' → wThread x t' = 0 := by intro h p t' hc; cases hc <;> rfl
    rw [hw _ _ _ hc]
    simp [wThread, Thread.carried, Thread.handling] at *
    omega
  | pushSend ht hk hg hl =>
    have h1 := total_ge (wThread x) ht
    have h2 := total_ge (wChan x) hg
    simp only [Sys.goto, Sys.setCh, total_sub _ ht, total_sub _ hg]
    have hw : ∀ t t' g p, Sends P t t' g p → wThread x t = wThread x t' := by
      intro t t' g p hc; cases hc <;> rfl
    rw [hw _ _ _ _ hk] at *
    simp [wChan] at *
    omega
  | @popRecv i g ch p q ht hg hq =>
    have h1 := total_ge (wThread x) ht
    have h2 := total_ge (wChan x) hg
    have hq : ch.recv = [p] ++ q := hq
    simp only [Sys.goto, Sys.setCh, total_sub _ ht, total_sub _ hg]
    simp only [wThread, wChan, hq, Thread.carried, Thread.handling, List.filterMap_append, List.count_append,
      List.filterMap_nil, List.count_nil] at *
    omega
  | popPoll ht hg hq | popSend ht hg hq | popReply ht hg hq | pushDmx ht hg hq
  | pushRecv ht hg hq | pushPoll ht hg hq | pushOwn ht hg hq | pushReply ht hg hq =>
    have h1 := total_ge (wThread x) ht
    have h2 := total_ge (wChan x) hg
    simp only [Sys.goto, Sys.setCh, total_sub _ ht, total_sub _ hg]
    simp [wThread, wChan, Thread.carried, Thread.handling, List.count_append] at *
    omega
  | close hc h hg hd =>
    have h2 := total_ge (wChan x) hg
    simp only [Sys.setCh, total_sub _ hg]
    simp [wChan] at *
    omega
  | startPanic | startFail =>
    simp only [Sys.reset, Sys.panic, Sys.resetTables]
    split <;> exact ih
  | start =>
    simp only [Sys.reset, Sys.makeChannels, Sys.resetTables]
    split <;> simpa [wChan, Chans.make] using ih
  | listen =>
    have := goroutines_weightless P (wThread x) rfl rfl rfl rfl rfl
    simp only [total_append]
    omega
  | spawnCaller => simpa [wThread, Thread.carried, Thread.handling] using ih
  | panic | listenFail | stop | disconnect | disconnectC | ended | register | deregister | noRegister =>
    exact ih

end Verif.Conc
