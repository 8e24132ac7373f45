import Verif.Model.Fine
import Verif.Spec.Exclusive
import Verif.Spec.Fine
import Verif.Lemmas.MemoryInv
/-
Critical sections in small steps.
-/
namespace Verif.Conc
open Packet Code Artnet Spec

/-- The system while a section is going on. -/
def Sys.during (s : Sys) (x : Ctrl) : Sys := { s with lock := true, ctrl := x }

/-- A goroutine that neither is in a section nor takes the lock does not see the tables. -/
theorem step_during {P : Params} {s : Sys} {x : Ctrl} {i : Nat} {t : Thread} {c : Choice} (ho : ∀ c, t.op? c = none)
    (hs : inSection t = false) (hl : t ≠ .duLock) :
    (s.during x).step P i t c = (s.step P i t c).map (·.during x) := by
  cases t with
  | plGc => exact absurd (ho (.clock fun _ => 0)) (by simp [Thread.op?])
  | caller d a => exact absurd (ho .next) (by simp [Thread.op?])
  | duTick => cases hs
  | duSend => cases hs
  | duLock => exact absurd rfl hl
  | plGot p =>
    have hi : ignored p = true := by
      have := ho (.at 0)
      simp only [Thread.op?] at this
      split at this
      · assumption
      · cases this
    cases c <;> simp only [Sys.step, hi, if_true] <;> rfl
  | rdCheck b res =>
    cases c <;> try rfl
    simp only [Sys.step]
    by_cases hsd : s.shutdown = true
    · rw [if_pos (show (s.during x).shutdown = true from hsd), if_pos hsd]
      rfl
    · rw [if_neg (show ¬(s.during x).shutdown = true from hsd), if_neg hsd]
      rcases res with _ | ⟨n, src⟩
      · rfl
      · by_cases hip : ipEqual P.localIP src.ip = true
        · simp only [if_pos hip]
          rfl
        · simp only [if_neg hip]
          rfl
  | _ =>
    cases c <;> first
      | rfl
      | (simp only [Sys.step, Sys.comm, Sys.during]; repeat' split
         all_goals first | rfl | (simp_all [Sys.goto]; done))
      | (simp only [Sys.step, Option.map_map]; rfl)

/-- Nor does it change them. -/
theorem step_apart {P : Params} {s s' : Sys} {i : Nat} {t : Thread} {c : Choice} (ho : ∀ c, t.op? c = none)
    (hs : inSection t = false) (hl : t ≠ .duLock) (h : s.step P i t c = some s') :
    s'.ctrl = s.ctrl ∧ s'.lock = s.lock := by
  cases t with
  | plGc => exact absurd (ho (.clock fun _ => 0)) (by simp [Thread.op?])
  | caller d a => exact absurd (ho .next) (by simp [Thread.op?])
  | duTick => cases hs
  | duSend => cases hs
  | duLock => exact absurd rfl hl
  | plGot p =>
    have hi : ignored p = true := by
      have := ho (.at 0)
      simp only [Thread.op?] at this
      split at this
      · assumption
      · cases this
    cases c <;> simp only [Sys.step, hi, if_true] at h <;> cases h <;> exact ⟨rfl, rfl⟩
  | _ =>
    cases c <;> simp only [Sys.step, Sys.comm, Option.map_eq_some_iff] at h
    all_goals try (repeat' split at h)
    all_goals first
      | (cases h; done)
      | (have h := Option.some.inj h; subst h; exact ⟨rfl, rfl⟩)
      | (obtain ⟨a, h1, rfl⟩ := h; exact ⟨rfl, rfl⟩)
      | (obtain ⟨a, h1, h2⟩ := h; cases h1 <;> (subst h2; exact ⟨rfl, rfl⟩))

/-- A step of one goroutine leaves the others where they are. -/
theorem thread_other {P : Params} {s s' : Sys} {i j : Nat} {t u : Thread} {c : Choice} (ht : s.threads[i]? = some t)
    (h : s.step P i t c = some s') (hj : s.threads[j]? = some u) (hne : j ≠ i) : s'.threads[j]? = some u := by
  have hrun := step_Run h
  cases hc : s'.crashed with
  | none =>
    obtain ⟨t', ts, e, _⟩ := run_locks ht hrun hc
    have hlt := (List.getElem?_eq_some_iff.mp hj).1
    rw [e, List.getElem?_append_left (by simpa using hlt), List.getElem?_set_ne (Ne.symm hne)]
    exact hj
  | some f =>
    cases hs : s.crashed with
    | none =>
      cases hrun <;> first
        | exact hj
        | (simp only [Sys.goto, Sys.setCh] at hc; rw [hs] at hc; cases hc)
    | some g =>
      cases hrun <;> first
        | exact hj
        | (simp only [Sys.goto, Sys.setCh]; rw [List.getElem?_set_ne (Ne.symm hne)]; exact hj)
        | (have hlt := (List.getElem?_eq_some_iff.mp hj).1
           simp only [Sys.goto]
           rw [List.getElem?_append_left (by simpa using hlt), List.getElem?_set_ne (Ne.symm hne)]; exact hj)

/-- A whole section is the operation on the tables, whatever the tables are. -/
theorem step_section {P : Params} {s : Sys} {i : Nat} {t : Thread} {c : Choice} {o : Op} (hl : s.lock = false)
    (ho : t.op? c = some o) : ∃ t', ∀ x, ({ s with ctrl := x } : Sys).step P i t c =
      some (({ s with ctrl := (x.step o).1, hist := s.hist ++ [o] } : Sys).goto i t') := by
  unfold Thread.op? at ho
  split at ho
  · cases ho
    exact ⟨_, fun x => by simp only [Sys.step, hl]; rfl⟩
  · split at ho
    · cases ho
    · rename_i hn
      cases ho
      exact ⟨_, fun x => by simp only [Sys.step, hl, if_neg hn]; rfl⟩
  · cases ho
    exact ⟨_, fun x => by simp only [Sys.step, hl]; rfl⟩
  · cases ho

/-- What the program does is not kept up by a section, Start apart. -/
theorem exec_during {P : Params} {s f : Sys} {x : Ctrl} {a : Act} (hr : Reach P s) (hl : s.lock = false) (ha : a ≠ .start)
    (ho : ∀ t c, (s.during x).runner a = some t → t.op? c = none) (h : (s.during x).exec P a = some f) :
    ∃ s', s.exec P a = some s' ∧ f = s'.during f.ctrl ∧ f.ctrl = x ∧ s'.ctrl = s.ctrl ∧ s'.lock = false ∧
      ∀ (j : Nat) u c o, s.threads[j]? = some u → u.op? c = some o → s'.threads[j]? = some u := by
  have hc : s.crashed = none := (exec_Step h).1
  cases a with
  | start => exact absurd rfl ha
  | run i c =>
    cases ht : s.threads[i]? with
    | none =>
      unfold Sys.exec at h
      rw [show (s.during x).crashed = none from hc, if_neg (by simp)] at h
      simp only [show (s.during x).threads[i]? = none from ht] at h
      cases h
    | some t =>
      rw [exec_run (s := s.during x) hc ht] at h
      replace ho : ∀ c, t.op? c = none := fun c => ho t c ht
      have hs : inSection t = false := by
        cases e : inSection t with
        | false => rfl
        | true => exact (no_section hr hl ht e).elim
      by_cases hd : t = .duLock
      · subst hd
        cases c <;> simp only [Sys.step] at h <;> cases h
      · rw [step_during ho hs hd] at h
        cases hx : s.step P i t c with
        | none => rw [hx] at h; cases h
        | some s' =>
          rw [hx] at h
          cases h
          obtain ⟨e1, e2⟩ := step_apart ho hs hd hx
          refine ⟨s', by rw [exec_run hc ht, hx], rfl, rfl, e1, e2.trans hl, fun j u c o hj hu => ?_⟩
          refine thread_other ht hx hj ?_
          rintro rfl
          rw [ht] at hj
          cases hj
          rw [ho _] at hu
          cases hu
  | listen ok =>
    simp only [Sys.exec, hc, show (s.during x).crashed = none from hc] at h ⊢
    by_cases h1 : s.control = .listening
    · cases ok
      · simp only [h1, show (s.during x).control = .listening from h1] at h ⊢
        cases h
        exact ⟨_, rfl, rfl, rfl, rfl, hl, fun _ _ _ _ hj _ => hj⟩
      · simp only [h1, show (s.during x).control = .listening from h1] at h ⊢
        cases h
        refine ⟨_, rfl, rfl, rfl, rfl, hl, fun j _ _ _ hj _ => ?_⟩
        have hlt := (List.getElem?_eq_some_iff.mp hj).1
        exact (List.getElem?_append_left hlt).trans hj
    · simp [h1, show (s.during x).control = s.control from rfl] at h
  | stop =>
    simp only [Sys.exec, hc, show (s.during x).crashed = none from hc] at h ⊢
    by_cases h1 : s.control = .idle
    · simp only [h1, show (s.during x).control = .idle from h1, show (s.during x).tickers = s.tickers from rfl] at h ⊢
      by_cases h2 : (P.controller && !s.tickers) = true
      · simp only [h2] at h ⊢
        cases h
        exact ⟨_, rfl, rfl, rfl, rfl, hl, fun _ _ _ _ hj _ => hj⟩
      · simp only [h2] at h ⊢
        cases h
        exact ⟨_, rfl, rfl, rfl, rfl, hl, fun _ _ _ _ hj _ => hj⟩
    · simp [h1, show (s.during x).control = s.control from rfl] at h
  | stopStep =>
    have eq : (s.during x).exec P .stopStep = (s.exec P .stopStep).map (·.during x) := by
      simp only [Sys.exec, hc, show (s.during x).crashed = none from hc]
      rw [show (s.during x).control = s.control from rfl]
      cases h1 : s.control with
      | closing =>
        simp only [show (s.during x).cur = s.cur from rfl]
        cases h2 : s.cur with
        | none => rfl
        | some g =>
          simp only [show (s.during x).chans = s.chans from rfl]
          cases h3 : s.chans[g]? with
          | none => rfl
          | some ch => by_cases h4 : ch.down = true <;> simp only [h4] <;> rfl
      | disconnecting => by_cases h2 : P.controller = true <;> simp only [h2] <;> rfl
      | ending =>
        simp only [show (s.during x).ccur = s.ccur from rfl, show (s.during x).cdown = s.cdown from rfl]
        cases h2 : s.ccur with
        | none => rfl
        | some k => by_cases h3 : s.cdown[k]? = some true <;> simp only [h3, if_true, if_false] <;> rfl
      | _ => rfl
    have keep : ∀ s', s.exec P .stopStep = some s' → s'.ctrl = s.ctrl ∧ s'.lock = s.lock ∧ s'.threads = s.threads := by
      intro s' hx
      unfold Sys.exec at hx
      rw [hc] at hx
      simp only at hx
      repeat' split at hx
      all_goals first
        | (cases hx; done)
        | (have hx := Option.some.inj hx; subst hx; exact ⟨rfl, rfl, rfl⟩)
    rw [eq] at h
    cases hx : s.exec P .stopStep with
    | none => rw [hx] at h; cases h
    | some s' =>
      rw [hx] at h
      cases h
      obtain ⟨e1, e2, e3⟩ := keep s' hx
      exact ⟨s', rfl, rfl, rfl, e1, e2.trans hl, fun j u c o hj _ => by rw [e3]; exact hj⟩
  | register o w =>
    simp only [Sys.exec, hc, show (s.during x).crashed = none from hc] at h ⊢
    by_cases h1 : s.control = .idle
    · simp only [h1, show (s.during x).control = .idle from h1, show (s.during x).shutdown = s.shutdown from rfl] at h ⊢
      by_cases h2 : (!s.shutdown) = true
      · simp only [h2] at h ⊢
        cases h
        exact ⟨_, rfl, rfl, rfl, rfl, hl, fun _ _ _ _ hj _ => hj⟩
      · simp only [h2] at h ⊢
        cases h
        exact ⟨_, rfl, rfl, rfl, rfl, hl, fun _ _ _ _ hj _ => hj⟩
    · simp [h1, show (s.during x).control = s.control from rfl] at h
  | deregister o =>
    simp only [Sys.exec, hc, show (s.during x).crashed = none from hc] at h ⊢
    by_cases h1 : s.control = .idle
    · simp only [h1, show (s.during x).control = .idle from h1, show (s.during x).shutdown = s.shutdown from rfl] at h ⊢
      by_cases h2 : (!s.shutdown) = true
      · simp only [h2] at h ⊢
        cases h
        exact ⟨_, rfl, rfl, rfl, rfl, hl, fun _ _ _ _ hj _ => hj⟩
      · simp only [h2] at h ⊢
        cases h
        exact ⟨_, rfl, rfl, rfl, rfl, hl, fun _ _ _ _ hj _ => hj⟩
    · simp [h1, show (s.during x).control = s.control from rfl] at h
  | call d y =>
    simp only [Sys.exec, hc, show (s.during x).crashed = none from hc] at h ⊢
    by_cases h1 : P.controller = true
    · simp only [h1] at h ⊢
      cases h
      refine ⟨_, rfl, rfl, rfl, rfl, hl, fun j _ _ _ hj _ => ?_⟩
      have hlt := (List.getElem?_eq_some_iff.mp hj).1
      exact (List.getElem?_append_left hlt).trans hj
    · simp [h1] at h

/-- The state in small steps is that of whole sections, apart from a section that has begun and has not ended. -/
structure Like (P : Params) (f : Fine) (s : Sys) : Prop where
  reach : Reach P s
  free : f.busy = none → f.sys = s
  busy : ∀ i c fs, f.busy = some ⟨i, c, fs⟩ → f.sys = s.during f.sys.ctrl ∧ s.lock = false ∧
    ∃ t o, s.threads[i]? = some t ∧ t.op? c = some o ∧ fs.foldl (fun x f => f x) f.sys.ctrl = (s.ctrl.step o).1

/-- The section that has begun. -/
def Fine.who (f : Fine) : Option (Nat × Choice) := f.busy.map fun b => (b.who, b.choice)

theorem does_like {P : Params} {f g : Fine} {x : Small} {s : Sys} (h : Fine.Does P f x g) (hl : Like P f s)
    (hx : f.busy.isSome → x ≠ .act .start) :
    ∃ s', Like P g s' ∧ s.execs P (wholeActs f.who [x]) = some s' ∧ ∀ xs, wholeActs f.who (x :: xs) = wholeActs f.who [x] ++ wholeActs g.who xs := by
  cases h with
  | @enter s0 i c fs t o h1 h2 h3 h4 h5 =>
    obtain rfl := hl.free rfl
    refine ⟨s0, ⟨hl.reach, nofun, fun i' c' fs' e => ?_⟩, rfl, fun xs => rfl⟩
    cases e
    exact ⟨rfl, h2, t, o, h3, h4, h5⟩
  | @work s0 i c k fs h1 =>
    obtain ⟨e, h2, t, o, h3, h4, h5⟩ := hl.busy i c (k :: fs) rfl
    refine ⟨s, ⟨hl.reach, nofun, fun i' c' fs' e' => ?_⟩, rfl, fun xs => rfl⟩
    cases e'
    refine ⟨?_, h2, t, o, h3, h4, h5⟩
    simp only at e ⊢
    rw [e]
    rfl
  | @leave s0 s1 i c h1 =>
    obtain ⟨e, h2, t, o, h3, h4, h5⟩ := hl.busy i c [] rfl
    simp only [List.foldl_nil] at e h5
    have hc : s.crashed = none := by
      have := (exec_Step h1).1
      rw [e] at this
      exact this
    obtain ⟨t', ht'⟩ := step_section (P := P) (i := i) h2 h4
    have hz : ({ s0 with lock := false } : Sys) = { s with ctrl := s0.ctrl } := by
      rw [e]
      simp only [Sys.during, ← h2]
    rw [hz, exec_run (s := { s with ctrl := s0.ctrl }) hc h3, ht' s0.ctrl] at h1
    have h1 := Option.some.inj h1
    subst h1
    have hw : s.exec P (.run i c) = some (({ s with ctrl := s0.ctrl, hist := s.hist ++ [o] } : Sys).goto i t') := by
      rw [exec_run hc h3, h5]
      exact ht' s.ctrl
    refine ⟨_, ⟨hl.reach.exec hw, fun _ => rfl, nofun⟩, ?_, fun xs => rfl⟩
    simp only [Fine.who, Option.map_some, wholeActs, Sys.execs, hw]
  | @act s0 s1 a b h1 h2 =>
    cases b with
    | none =>
      obtain rfl := hl.free rfl
      exact ⟨s1, ⟨hl.reach.exec h2, fun _ => rfl, nofun⟩, by simp only [wholeActs, Sys.execs, h2], fun xs => rfl⟩
    | some b =>
      obtain ⟨i, c, fs⟩ := b
      obtain ⟨e, h3, t, o, h4, h5, h6⟩ := hl.busy i c fs rfl
      simp only at e h6
      rw [e] at h1 h2
      obtain ⟨s', k1, k2, k3, k4, k5, k6⟩ := exec_during hl.reach h3 (fun ha => hx rfl (by rw [ha])) h1 h2
      refine ⟨s', ⟨hl.reach.exec k1, nofun, fun i' c' fs' e' => ?_⟩, by simp only [wholeActs, Sys.execs, k1], fun xs => rfl⟩
      cases e'
      exact ⟨k2, k5, t, o, k6 i t c o h4 h5, h5, by rw [k4, ← h6]; simp only [k3]⟩

theorem runs_like {P : Params} {f g : Fine} {xs : List Small} {s : Sys} (h : Fine.Runs P f xs g) (hl : Like P f s)
    (hx : startsOutside f.busy.isSome xs = true) :
    ∃ s', Like P g s' ∧ s.execs P (wholeActs f.who xs) = some s' := by
  induction h generalizing s with
  | nil f => exact ⟨s, hl, by cases f.who <;> rfl⟩
  | @cons f g h x xs hd hr ih =>
    have hns : f.busy.isSome → x ≠ .act .start := by
      rintro hb rfl
      rw [hb] at hx
      simp [startsOutside] at hx
    obtain ⟨s1, k1, k2, k3⟩ := does_like hd hl hns
    have hg : startsOutside g.busy.isSome xs = true := by
      cases hd with
      | enter => exact hx
      | work => exact hx
      | leave => exact hx
      | @act _ _ a b _ _ =>
        cases a with
        | start =>
          simp only [startsOutside, Bool.and_eq_true] at hx
          exact hx.2
        | _ => exact hx
    obtain ⟨s2, k4, k5⟩ := ih k1 hg
    exact ⟨s2, k4, by rw [k3, execs_append, k2]; exact k5⟩

theorem Fine.Runs.append {P : Params} {f g h : Fine} {xs ys : List Small} (h1 : Fine.Runs P f xs g) (h2 : Fine.Runs P g ys h) :
    Fine.Runs P f (xs ++ ys) h := by
  induction h1 with
  | nil => exact h2
  | cons hd _ ih => exact .cons hd (ih h2)

/-- A goroutine that goes on is at the beginning of a section, or it is not and has none. -/
theorem op_or_none {P : Params} {s s' : Sys} {i : Nat} {t : Thread} {c : Choice} (h : s.step P i t c = some s') :
    (∃ o, t.op? c = some o ∧ s.lock = false) ∨ ∀ c, t.op? c = none := by
  cases t with
  | plGc =>
    cases c <;> simp only [Sys.step] at h <;> first | (cases h; done) | skip
    split at h
    · cases h
    · rename_i hl
      exact .inl ⟨_, rfl, by simpa using hl⟩
  | caller d a =>
    cases c <;> simp only [Sys.step] at h <;> first | (cases h; done) | skip
    split at h
    · cases h
    · rename_i hl
      exact .inl ⟨_, rfl, by simpa using hl⟩
  | plGot p =>
    cases c <;> simp only [Sys.step] at h <;> first | (cases h; done) | skip
    split at h
    · rename_i hi
      exact .inr fun c => by cases c <;> simp [Thread.op?, hi]
    · rename_i hi
      split at h
      · cases h
      · rename_i hl
        exact .inl ⟨_, by simp only [Thread.op?, if_neg hi]; rfl, by simpa using hl⟩
  | _ => exact .inr fun c => by cases c <;> rfl

/-- A section in one piece. -/
theorem act_small {P : Params} {s s' : Sys} {a : Act} (h : s.exec P a = some s') :
    ∃ xs, Fine.Runs P ⟨s, none⟩ xs ⟨s', none⟩ ∧ startsOutside false xs = true ∧
      (∀ ys, wholeActs none (xs ++ ys) = a :: wholeActs none ys) ∧ ∀ ys, startsOutside false (xs ++ ys) = startsOutside false ys := by
  have plain : (∀ t c, s.runner a = some t → t.op? c = none) → ∃ xs, Fine.Runs P ⟨s, none⟩ xs ⟨s', none⟩ ∧ startsOutside false xs = true ∧
      (∀ ys, wholeActs none (xs ++ ys) = a :: wholeActs none ys) ∧ ∀ ys, startsOutside false (xs ++ ys) = startsOutside false ys :=
    fun ho => ⟨[.act a], .cons (.act ho h) (.nil _), by cases a <;> rfl, fun ys => rfl, fun ys => by cases a <;> simp [startsOutside]⟩
  cases a with
  | run i c =>
    have hc := (exec_Step h).1
    obtain ⟨t, ht, _⟩ := run_thread h
    have hs := h
    rw [exec_run hc ht] at hs
    rcases op_or_none hs with ⟨o, ho, hl⟩ | ho
    · obtain ⟨t', ht'⟩ := step_section (P := P) (i := i) hl ho
      refine ⟨[.enter i c [fun x => (x.step o).1], .work, .leave], ?_, rfl, fun ys => rfl, fun ys => rfl⟩
      refine .cons (.enter hc hl ht ho rfl) (.cons (.work hc) ?_)
      have hb : ({ ({ s with lock := true, ctrl := (s.ctrl.step o).1 } : Sys) with lock := false } : Sys) = { s with ctrl := (s.ctrl.step o).1 } := by
        simp only [← hl]
      have hx := ht' (s.ctrl.step o).1
      rw [← exec_run (s := { s with ctrl := (s.ctrl.step o).1 }) hc ht, ← hb] at hx
      have hs1 : s' = { (({ s with ctrl := ((s.ctrl.step o).1.step o).1, hist := s.hist ++ [o] } : Sys).goto i t') with ctrl := (s.ctrl.step o).1 } := by
        have := ht' s.ctrl
        rw [show ({ s with ctrl := s.ctrl } : Sys) = s from rfl, hs] at this
        exact Option.some.inj this
      rw [hs1]
      exact .cons (.leave hx) (.nil _)
    · exact plain fun t1 c1 h1 => by
        rw [show s.runner (.run i c) = s.threads[i]? from rfl, ht] at h1
        cases h1
        exact ho c1
  | _ => exact plain nofun

theorem execs_small {P : Params} {as : List Act} {s s' : Sys} (h : s.execs P as = some s') :
    ∃ xs, Fine.Runs P ⟨s, none⟩ xs ⟨s', none⟩ ∧ startsOutside false xs = true ∧ wholeActs none xs = as := by
  induction as generalizing s with
  | nil => cases h; exact ⟨[], .nil _, rfl, rfl⟩
  | cons a as ih =>
    simp only [Sys.execs] at h
    split at h
    · cases h
    · rename_i s1 h1
      obtain ⟨xs, e1, _, e2, e3⟩ := act_small h1
      obtain ⟨ys, e4, e5, e6⟩ := ih h
      exact ⟨xs ++ ys, e1.append e4, by rw [e3]; exact e5, by rw [e2, e6]⟩

/-- A section that has begun can go on to its end without any other goroutine. -/
theorem section_ends {P : Params} {f : Fine} {s : Sys} (hl : Like P f s) (hc : f.sys.crashed = none) (hb : f.busy.isSome) :
    ∃ n g, Fine.Runs P f (List.replicate n .work ++ [.leave]) g ∧ g.busy = none := by
  obtain ⟨z, b⟩ := f
  cases b with
  | none => cases hb
  | some b =>
    obtain ⟨i, c, fs⟩ := b
    induction fs generalizing z with
    | nil =>
      obtain ⟨e, h2, t, o, h3, h4, h5⟩ := hl.busy i c [] rfl
      simp only at e
      have hs : s.crashed = none := by rw [e] at hc; exact hc
      obtain ⟨t', ht'⟩ := step_section (P := P) (i := i) h2 h4
      have hz : ({ z with lock := false } : Sys) = { s with ctrl := z.ctrl } := by
        rw [e]
        simp only [Sys.during, ← h2]
      have hx := ht' z.ctrl
      rw [← exec_run (s := { s with ctrl := z.ctrl }) hs h3, ← hz] at hx
      exact ⟨0, _, .cons (.leave hx) (.nil _), rfl⟩
    | cons k fs ih =>
      have hw : Fine.Does P ⟨z, some ⟨i, c, k :: fs⟩⟩ .work ⟨{ z with ctrl := k z.ctrl }, some ⟨i, c, fs⟩⟩ := .work hc
      obtain ⟨s1, k1, k2, _⟩ := does_like hw hl (fun _ => nofun)
      have : s1 = s := by cases k2; rfl
      subst this
      obtain ⟨n, g, h1, h2⟩ := ih _ k1 hc rfl
      exact ⟨n + 1, g, .cons hw h1, h2⟩

theorem outside_append {P : Params} {f g : Fine} {xs ys : List Small} (h : Fine.Runs P f xs g)
    (hx : startsOutside f.busy.isSome xs = true) (hy : startsOutside g.busy.isSome ys = true) :
    startsOutside f.busy.isSome (xs ++ ys) = true := by
  induction h with
  | nil => exact hy
  | @cons f g h x xs hd hr ih =>
    cases hd with
    | enter => exact ih hx hy
    | work => exact ih hx hy
    | leave => exact ih hx hy
    | @act _ _ a b _ _ =>
      cases a with
      | start =>
        simp only [List.cons_append, startsOutside, Bool.and_eq_true] at hx ⊢
        exact ⟨hx.1, ih hx.2 hy⟩
      | _ => exact ih hx hy

end Verif.Conc
