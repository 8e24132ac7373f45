import Verif.Lemmas.ConcPoll
import Verif.Lemmas.CtrlInv
/-
The operations on the controller's tables are linearizable: concurrent executions have the effect of the
history of operations in the order in which they got the lock.
-/
namespace Verif.Conc
open Packet Code Artnet Spec

/-- The rest of a tick. -/
def finish (c : Ctrl) (rest : List (Address × Ref)) (now : Int) : Ctrl × List Emission :=
  match rest with
  | [] => (c, [])
  | (a, r) :: rest =>
    ((finish (c.tickAt a r now).1 rest now).1,
      (c.tickAt a r now).2 ++ (finish (c.tickAt a r now).1 rest now).2)

theorem tickAt_output (c : Ctrl) (a : Address) (r : Ref) (now : Int) :
    (c.tickAt a r now).1.output = c.output := by
  rw [tickAt_eq]; split <;> rfl

theorem tickAt_restart (c : Ctrl) (a : Address) (r : Ref) (now : Int) :
    c.restart.tickAt a r now = ((c.tickAt a r now).1.restart, (c.tickAt a r now).2) := by
  rw [tickAt_eq, tickAt_eq]
  by_cases h : Due (bufferAt (c.heap r) a) now c.maxFPS
  · rw [if_pos h, if_pos (show Due (bufferAt (c.restart.heap r) a) now c.restart.maxFPS from h)]; rfl
  · rw [if_neg h, if_neg (show ¬ Due (bufferAt (c.restart.heap r) a) now c.restart.maxFPS from h)]; rfl

theorem finish_restart (c : Ctrl) (rest : List (Address × Ref)) (now : Int) :
    finish c.restart rest now = ((finish c rest now).1.restart, (finish c rest now).2) := by
  induction rest generalizing c with
  | nil => rfl
  | cons x rest ih =>
    obtain ⟨a, r⟩ := x
    simp only [finish, tickAt_restart, ih]

theorem finish_tickOver (m : GoMap Address Ref) (l : List Address) (c : Ctrl) (now : Int) (h : c.output = m) :
    finish c (l.filterMap fun a => (m.get a).map fun r => (a, r)) now = c.tickOver l now := by
  induction l generalizing c with
  | nil => rfl
  | cons a l ih =>
    subst h
    cases hr : c.output.get a with
    | none =>
      rw [List.filterMap_cons_none (by simp [hr])]
      simp only [Ctrl.tickOver, hr]
      exact ih c rfl
    | some r =>
      rw [List.filterMap_cons_some (b := (a, r)) (by simp [hr])]
      simp only [finish, Ctrl.tickOver, hr]
      rw [ih (c.tickAt a r now).1 (tickAt_output c a r now)]

/-- What the goroutine that holds the lock has left to do. -/
def holder : Thread → Option (List Emission × List (Address × Ref) × Int)
  | .duTick pend rest now => some (pend, rest, now)
  | .duSend _ e pend rest now => some (e :: pend, rest, now)
  | _ => none

def wHold (t : Thread) : Nat := if (holder t).isSome then 1 else 0

/-- The history, seen from the moment when `pend` and `rest` are still to be done. -/
structure Lin (P : Params) (s : Sys) (pend : List Emission) (rest : List (Address × Ref)) (now : Int) :
    Prop where
  can : (Ctrl.init P.maxFPS).CanRun s.hist
  state : ((Ctrl.init P.maxFPS).run s.hist).1 = (finish s.ctrl rest now).1
  sent : ((Ctrl.init P.maxFPS).run s.hist).2 = s.emitted ++ (pend ++ (finish s.ctrl rest now).2)

structure LinInv (P : Params) (s : Sys) : Prop where
  one : total wHold s.threads = if s.lock then 1 else 0
  free : s.lock = false → Lin P s [] [] 0
  held : ∀ (i : Nat) t pend rest now, s.threads[i]? = some t → holder t = some (pend, rest, now) →
    Lin P s pend rest now

theorem one_holder {l : List Thread} {b : Nat} (h : total wHold l = if b = 0 then 1 else 1) {i j : Nat} {t u}
    (hi : l[i]? = some t) (hj : l[j]? = some u) (ht : (holder t).isSome) (hu : (holder u).isSome) : i = j := by
  by_cases hij : i = j
  · exact hij
  have h1 : total wHold l = 1 := by rw [h]; split <;> rfl
  have h2 := total_set wHold hi .done
  have h3 : (l.set i .done)[j]? = some u := by rw [List.getElem?_set_ne hij]; exact hj
  have h4 := total_ge wHold h3
  have h5 : wHold t = 1 := by simp [wHold, ht]
  have h6 : wHold u = 1 := by simp [wHold, hu]
  have h7 : wHold .done = 0 := rfl
  omega

/-- Without the lock nobody holds it. -/
theorem LinInv.nobody {P : Params} {s : Sys} (h : LinInv P s) (hl : s.lock = false) {i : Nat} {t}
    (hi : s.threads[i]? = some t) : holder t = none := by
  have h1 := h.one
  rw [hl] at h1
  have h2 := total_ge wHold hi
  have h3 : wHold t = 0 := by simp at h1; omega
  cases hh : holder t with
  | none => rfl
  | some x => simp [wHold, hh] at h3

/-- The goroutine that holds the lock is the only one. -/
theorem LinInv.only {P : Params} {s : Sys} (h : LinInv P s) {i j : Nat} {t u}
    (hi : s.threads[i]? = some t) (hj : s.threads[j]? = some u) (ht : (holder t).isSome)
    (hu : (holder u).isSome) : i = j := by
  refine one_holder (b := 0) ?_ hi hj ht hu
  cases hl : s.lock with
  | true => have := h.one; rw [hl] at this; simpa using this
  | false => rw [h.nobody hl hi] at ht; cases ht

/-- A step of a goroutine that does not touch the tables. -/
theorem LinInv.quiet {P : Params} {s s' : Sys} {i : Nat} {t t'} (h : LinInv P s) (ht : s.threads[i]? = some t)
    (hth : s'.threads = s.threads.set i t') (hh : holder t' = holder t) (hl : s'.lock = s.lock)
    (hc : s'.ctrl = s.ctrl) (he : s'.emitted = s.emitted) (ho : s'.hist = s.hist) : LinInv P s' := by
  have hlin : ∀ p r n, Lin P s p r n → Lin P s' p r n := by
    intro p r n hx
    exact ⟨by rw [ho]; exact hx.can, by rw [ho, hc]; exact hx.state, by rw [ho, hc, he]; exact hx.sent⟩
  refine ⟨?_, ?_, ?_⟩
  · rw [hth, hl, ← h.one]
    have := total_set wHold ht t'
    have : wHold t' = wHold t := by simp [wHold, hh]
    omega
  · intro hf
    exact hlin _ _ _ (h.free (by rw [← hl]; exact hf))
  · intro j u pend rest now hj hu
    rw [hth] at hj
    by_cases hij : i = j
    · subst hij
      rw [List.getElem?_set_self (by exact (List.getElem?_eq_some_iff.mp ht).1)] at hj
      cases hj
      exact hlin _ _ _ (h.held i t pend rest now ht (by rw [← hh]; exact hu))
    · rw [List.getElem?_set_ne hij] at hj
      exact hlin _ _ _ (h.held j u pend rest now hj hu)

/-- Goroutines that do not hold the lock are added. -/
theorem LinInv.spawn {P : Params} {s s' : Sys} {l : List Thread} (h : LinInv P s)
    (hth : s'.threads = s.threads ++ l) (hh : ∀ t ∈ l, holder t = none) (hl : s'.lock = s.lock)
    (hc : s'.ctrl = s.ctrl) (he : s'.emitted = s.emitted) (ho : s'.hist = s.hist) : LinInv P s' := by
  have hlin : ∀ p r n, Lin P s p r n → Lin P s' p r n := by
    intro p r n hx
    exact ⟨by rw [ho]; exact hx.can, by rw [ho, hc]; exact hx.state, by rw [ho, hc, he]; exact hx.sent⟩
  refine ⟨?_, ?_, ?_⟩
  · rw [hth, hl, ← h.one, total_append]
    have : total wHold l = 0 := by
      clear hth
      induction l with
      | nil => rfl
      | cons a l ih =>
        simp only [total_cons, ih (fun t ht => hh t (List.mem_cons_of_mem _ ht))]
        simp [wHold, hh a List.mem_cons_self]
    omega
  · intro hf
    exact hlin _ _ _ (h.free (by rw [← hl]; exact hf))
  · intro j u pend rest now hj hu
    rw [hth] at hj
    by_cases hjl : j < s.threads.length
    · rw [List.getElem?_append_left hjl] at hj
      exact hlin _ _ _ (h.held j u pend rest now hj hu)
    · rw [List.getElem?_append_right (by omega)] at hj
      rw [hh u (List.mem_of_getElem? hj)] at hu
      cases hu

/-- An atomic operation of a goroutine while the lock is free. -/
theorem LinInv.atomic {P : Params} {s s' : Sys} {i : Nat} {t t'} (h : LinInv P s) (o : Op)
    (ht : s.threads[i]? = some t) (hf : s.lock = false)
    (hth : s'.threads = s.threads.set i t') (hh : holder t' = none) (hl : s'.lock = false)
    (hd : s.ctrl.CanDo o) (hc : s'.ctrl = (s.ctrl.step o).1) (hs : (s.ctrl.step o).2 = [])
    (he : s'.emitted = s.emitted) (ho : s'.hist = s.hist ++ [o]) : LinInv P s' := by
  have hx := h.free hf
  have hrun : ((Ctrl.init P.maxFPS).run s.hist).1 = s.ctrl := hx.state
  refine ⟨?_, ?_, ?_⟩
  · have h0 := h.one
    rw [hf] at h0
    rw [hth, hl]
    have h1 := total_set wHold ht t'
    have h2 : wHold t' = 0 := by simp [wHold, hh]
    simp at h0 ⊢
    omega
  · intro _
    refine ⟨?_, ?_, ?_⟩
    · rw [ho, canRun_append]
      refine ⟨hx.can, ?_⟩
      rw [hrun]
      exact ⟨hd, trivial⟩
    · rw [ho, (run_append _ _ _).1]
      show ((((Ctrl.init P.maxFPS).run s.hist).1).run [o]).1 = s'.ctrl
      rw [hrun, hc]
      rfl
    · rw [ho, (run_append _ _ _).2]
      show ((Ctrl.init P.maxFPS).run s.hist).2 ++ ((((Ctrl.init P.maxFPS).run s.hist).1).run [o]).2 = _
      rw [hrun, hx.sent, he]
      show s.emitted ++ ([] ++ []) ++ ((s.ctrl.step o).2 ++ []) = s.emitted ++ ([] ++ [])
      rw [hs]
      simp
  · intro j u pend rest now hj hu
    rw [hth] at hj
    by_cases hij : i = j
    · subst hij
      rw [List.getElem?_set_self (by exact (List.getElem?_eq_some_iff.mp ht).1)] at hj
      cases hj
      rw [hh] at hu; cases hu
    · rw [List.getElem?_set_ne hij] at hj
      rw [h.nobody hf hj] at hu; cases hu

/-- The tables are made anew, whoever holds the lock. -/
theorem LinInv.restart {P : Params} {s s' : Sys} (h : LinInv P s) 
    (hth : s'.threads = s.threads) (hl : s'.lock = s.lock) (hc : s'.ctrl = s.ctrl.restart)
    (he : s'.emitted = s.emitted) (ho : s'.hist = s.hist ++ [Op.restart]) : LinInv P s' := by
  have hlin : ∀ p r n, Lin P s p r n → Lin P s' p r n := by
    intro p r n hx
    refine ⟨?_, ?_, ?_⟩
    · rw [ho, canRun_append]; exact ⟨hx.can, trivial, trivial⟩
    · rw [ho, (run_append _ _ _).1, hc, finish_restart]
      show (((Ctrl.init P.maxFPS).run s.hist).1).restart = _
      rw [hx.state]
    · rw [ho, (run_append _ _ _).2, hc, finish_restart, he]
      show ((Ctrl.init P.maxFPS).run s.hist).2 ++ ([] ++ []) = _
      rw [hx.sent]
      simp
  refine ⟨by rw [hth, hl]; exact h.one, fun hf => hlin _ _ _ (h.free (by rw [← hl]; exact hf)), ?_⟩
  intro j u pend rest now hj hu
  rw [hth] at hj
  exact hlin _ _ _ (h.held j u pend rest now hj hu)

/-- Changes that do not concern the tables. -/
theorem LinInv.frame {P : Params} {s s' : Sys} (h : LinInv P s) 
    (hth : s'.threads = s.threads) (hl : s'.lock = s.lock) (hc : s'.ctrl = s.ctrl)
    (he : s'.emitted = s.emitted) (ho : s'.hist = s.hist) : LinInv P s' :=
  h.spawn (l := []) (by rw [hth, List.append_nil]) nofun hl hc he ho

theorem ignored_reply {p : ArtPollReply} (h : ignored p = true) (c : Ctrl) (now : Int) :
    c.pollReply p now = c := by
  simp only [ignored, decide_eq_true_eq] at h
  unfold Ctrl.pollReply
  dsimp only
  rcases h with h | h
  · rw [if_pos h]
  · split
    · rfl
    · first | rfl | rw [if_pos h]

theorem lin_inv {P : Params} {s : Sys} (h : Reach P s) : LinInv P s := by
  refine Reach.induct (P := P) (I := LinInv P) ?_ ?_ h
  · exact ⟨rfl, fun _ => ⟨trivial, rfl, rfl⟩, nofun⟩
  intro s s' hr ih _ hst
  cases hst with
  | move ht m => exact ih.quiet ht rfl (by cases m <;> rfl) rfl rfl rfl rfl
  | spawnReader ht | spawnHandler ht =>
    exact (ih.quiet ht (s' := s.goto _ .rlTop) rfl rfl rfl rfl rfl rfl).spawn rfl (all_one rfl) rfl rfl rfl rfl
  | call ht hh hc => exact ih.quiet ht rfl (by cases hc <;> rfl) rfl rfl rfl rfl
  | pushSend ht hk => exact ih.quiet ht rfl (by cases hk <;> rfl) rfl rfl rfl rfl
  | write ht | reject ht | lose ht | drop ht | arrive ht | accept ht
  | popPoll ht | popSend ht | popRecv ht | popReply ht | pushPoll ht | pushOwn ht | pushRecv ht
  | pushReply ht => exact ih.quiet ht rfl rfl rfl rfl rfl rfl
  | gc ht hl => exact ih.atomic (.gc _) ht hl rfl rfl hl trivial rfl rfl rfl rfl
  | reply ht hi hl => exact ih.atomic (.reply _ _) ht hl rfl rfl hl trivial rfl rfl rfl rfl
  | sendDMX ht hl => exact ih.atomic (.send _ _) ht hl rfl rfl hl trivial rfl rfl rfl rfl
  | @ignore i p now ht hi =>
    have hlin : ∀ p' r n, Lin P s p' r n → Lin P { s with hist := s.hist ++ [Op.reply p now] } p' r n := by
      intro p' r n hx
      refine ⟨?_, ?_, ?_⟩
      · rw [canRun_append]; exact ⟨hx.can, trivial, trivial⟩
      · rw [(run_append _ _ _).1]
        show (((Ctrl.init P.maxFPS).run s.hist).1).pollReply p now = _
        rw [ignored_reply hi]
        exact hx.state
      · rw [(run_append _ _ _).2]
        show ((Ctrl.init P.maxFPS).run s.hist).2 ++ ([] ++ []) = _
        rw [hx.sent]
        simp
    have h1 : LinInv P { s with hist := s.hist ++ [Op.reply p now] } :=
      ⟨ih.one, fun hf => hlin _ _ _ (ih.free hf), fun j u p' r n hj hu => hlin _ _ _ (ih.held j u p' r n hj hu)⟩
    exact h1.quiet ht rfl rfl rfl rfl rfl rfl
  | @lock i l now ht hl hp =>
    have hx := ih.free hl
    have hrun : ((Ctrl.init P.maxFPS).run s.hist).1 = s.ctrl := hx.state
    have hi := (List.getElem?_eq_some_iff.mp ht).1
    refine ⟨?_, ?_, ?_⟩
    · have h0 := ih.one
      rw [hl] at h0
      have h1 := total_set wHold ht
        (.duTick [] (l.filterMap fun a => (s.ctrl.output.get a).map fun r => (a, r)) now)
      simp only [Sys.goto]
      have h2 : ∀ a b c, wHold (.duTick a b c) = 1 := fun _ _ _ => rfl
      have h3 : wHold .duLock = 0 := rfl
      rw [h2, h3] at h1
      simp at h0 ⊢
      omega
    · intro h; cases h
    · intro j u pend rest now' hj hu
      simp only [Sys.goto] at hj
      by_cases hij : i = j
      · subst hij
        rw [List.getElem?_set_self hi] at hj
        cases hj
        cases hu
        refine ⟨?_, ?_, ?_⟩
        · show (Ctrl.init P.maxFPS).CanRun (s.hist ++ [Op.tick l now])
          rw [canRun_append, hrun]
          exact ⟨hx.can, hp, trivial⟩
        · show ((Ctrl.init P.maxFPS).run (s.hist ++ [Op.tick l now])).1 = _
          rw [(run_append _ _ _).1]
          show ((((Ctrl.init P.maxFPS).run s.hist).1).tickOver l now).1 = (finish s.ctrl _ now).1
          rw [hrun, finish_tickOver _ _ _ _ rfl]
        · show ((Ctrl.init P.maxFPS).run (s.hist ++ [Op.tick l now])).2 = _
          rw [(run_append _ _ _).2]
          show ((Ctrl.init P.maxFPS).run s.hist).2 ++
            (((((Ctrl.init P.maxFPS).run s.hist).1).tickOver l now).2 ++ []) =
            s.emitted ++ ([] ++ (finish s.ctrl _ now).2)
          rw [hrun, hx.sent, finish_tickOver _ _ _ _ rfl]
          simp [finish]
      · rw [List.getElem?_set_ne hij] at hj
        rw [ih.nobody hl hj] at hu; cases hu
  | @unlock i now ht =>
    have hx := ih.held i _ _ _ _ ht rfl
    have hi := (List.getElem?_eq_some_iff.mp ht).1
    have hlock : s.lock = true := by
      cases hl : s.lock with
      | true => rfl
      | false => have := ih.nobody hl ht; cases this
    refine ⟨?_, fun _ => ?_, ?_⟩
    · have h0 := ih.one
      rw [hlock] at h0
      have h1 := total_set wHold ht .duTop
      have h2 : wHold (.duTick [] [] now) = 1 := rfl
      have h3 : wHold .duTop = 0 := rfl
      simp only [Sys.goto]
      simp at h0 ⊢
      omega
    · exact ⟨hx.can, hx.state, hx.sent⟩
    · intro j u pend rest now' hj hu
      simp only [Sys.goto] at hj
      by_cases hij : i = j
      · subst hij
        rw [List.getElem?_set_self hi] at hj
        cases hj; cases hu
      · rw [List.getElem?_set_ne hij] at hj
        exact absurd (ih.only ht hj rfl (by rw [hu]; rfl)) hij
  | @tickAt i a r rest now ht =>
    have hx := ih.held i _ _ _ _ ht rfl
    have hi := (List.getElem?_eq_some_iff.mp ht).1
    have hlock : s.lock = true := by
      cases hl : s.lock with
      | true => rfl
      | false => have := ih.nobody hl ht; cases this
    refine ⟨?_, ?_, ?_⟩
    · have h1 := total_set wHold ht (.duTick (s.ctrl.tickAt a r now).2 rest now)
      have h2 : ∀ a b c, wHold (.duTick a b c) = 1 := fun _ _ _ => rfl
      rw [h2, h2] at h1
      rw [show ∀ x : Sys, (x.goto i (.duTick (s.ctrl.tickAt a r now).2 rest now)).lock = x.lock from
        fun _ => rfl]
      show total wHold (s.threads.set i _) = if s.lock = true then 1 else 0
      rw [← ih.one]
      omega
    · intro h
      have : s.lock = false := h
      rw [hlock] at this; cases this
    · intro j u pend rest' now' hj hu
      simp only [Sys.goto] at hj
      by_cases hij : i = j
      · subst hij
        rw [List.getElem?_set_self hi] at hj
        cases hj; cases hu
        refine ⟨hx.can, hx.state, ?_⟩
        show ((Ctrl.init P.maxFPS).run s.hist).2 = s.emitted ++ ((s.ctrl.tickAt a r now).2 ++ _)
        rw [hx.sent]
        rfl
      · rw [List.getElem?_set_ne hij] at hj
        exact absurd (ih.only ht hj rfl (by rw [hu]; rfl)) hij
  | @pushDmx i g e pend rest now ch ht hg hl =>
    have hx := ih.held i _ _ _ _ ht rfl
    have hi := (List.getElem?_eq_some_iff.mp ht).1
    have hlock : s.lock = true := by
      cases hl : s.lock with
      | true => rfl
      | false => have := ih.nobody hl ht; cases this
    refine ⟨?_, ?_, ?_⟩
    · have h1 := total_set wHold ht (.duTick pend rest now)
      have h2 : ∀ a b c, wHold (.duTick a b c) = 1 := fun _ _ _ => rfl
      have h3 : wHold (.duSend g e pend rest now) = 1 := rfl
      rw [h2, h3] at h1
      show total wHold (s.threads.set i _) = if s.lock = true then 1 else 0
      rw [← ih.one]
      omega
    · intro h
      have : s.lock = false := h
      rw [hlock] at this; cases this
    · intro j u pend' rest' now' hj hu
      simp only [Sys.goto, Sys.setCh] at hj
      by_cases hij : i = j
      · subst hij
        rw [List.getElem?_set_self hi] at hj
        cases hj; cases hu
        refine ⟨hx.can, hx.state, ?_⟩
        show ((Ctrl.init P.maxFPS).run s.hist).2 = (s.emitted ++ [e]) ++ (pend ++ (finish s.ctrl rest now).2)
        rw [hx.sent]
        simp
      · rw [List.getElem?_set_ne hij] at hj
        exact absurd (ih.only ht hj rfl (by rw [hu]; rfl)) hij
  | startPanic | startFail | start =>
    simp only [Sys.reset]
    split
    · exact ih.restart rfl rfl rfl rfl rfl
    · exact ih.frame rfl rfl rfl rfl rfl
  | listen => exact ih.spawn rfl (all_goroutines P rfl rfl rfl rfl rfl) rfl rfl rfl rfl
  | spawnCaller => exact ih.spawn rfl (all_one rfl) rfl rfl rfl rfl
  | panic | close | listenFail | stop | disconnect | disconnectC | ended | register | deregister
  | noRegister => exact ih.frame rfl rfl rfl rfl rfl

end Verif.Conc
