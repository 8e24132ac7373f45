import Verif.Lemmas.Conc
/-
What a step of a goroutine leaves alone.
-/
namespace Verif.Conc
open Packet Code Artnet

/-- The fields that only the life cycle calls change. -/
structure Frame (s s' : Sys) : Prop where
  callbacks : s'.callbacks = s.callbacks
  shutdown : s'.shutdown = s.shutdown
  cur : s'.cur = s.cur
  conns : s'.conns = s.conns
  conn : s'.conn = s.conn
  control : s'.control = s.control
  phase : s'.phase = s.phase
  tickers : s'.tickers = s.tickers
  cdown : s'.cdown = s.cdown
  ccur : s'.ccur = s.ccur
  shutdownErr : s'.shutdownErr = s.shutdownErr
  results : s'.results = s.results
  down : s'.chans.map Chans.down = s.chans.map Chans.down

theorem set_down {l : List Chans} {g : Nat} {ch ch' : Chans} (hg : l[g]? = some ch) (hd : ch'.down = ch.down) :
    (l.set g ch').map Chans.down = l.map Chans.down := by
  rw [List.map_set]
  apply List.ext_getElem?
  intro i
  by_cases hi : g = i
  · subst hi
    have hlt := (List.getElem?_eq_some_iff.mp hg).1
    rw [List.getElem?_set_self (by simpa using hlt), List.getElem?_map, hg, hd]
    rfl
  · rw [List.getElem?_set_ne hi]

theorem push_down {q : List α} {x o : Chans} (h : (if q.length < capacity then some x else none) = some o) :
    o = x := (push_eq h).2

theorem step_frame {P : Params} {s s' : Sys} {i : Nat} {t : Thread} {c : Choice}
    (h : s.step P i t c = some s') : Frame s s' := by
  have triv : ∀ s1 : Sys, ∀ j t', s1.callbacks = s.callbacks → s1.shutdown = s.shutdown → s1.cur = s.cur →
      s1.conns = s.conns → s1.conn = s.conn → s1.control = s.control → s1.phase = s.phase →
      s1.tickers = s.tickers → s1.cdown = s.cdown → s1.ccur = s.ccur → s1.shutdownErr = s.shutdownErr →
      s1.results = s.results → s1.chans = s.chans → Frame s (s1.goto j t') := by
    intro s1 j t' h1 h2 h3 h4 h5 h6 h7 h8 h9 h10 h11 h12 h13
    exact ⟨h1, h2, h3, h4, h5, h6, h7, h8, h9, h10, h11, h12, by rw [← h13]; rfl⟩
  have comm : ∀ {g : Nat} {f : Chans → Option Chans} {s1 : Sys} (_ : s.comm g f = some s1),
      (∀ ch ch', f ch = some ch' → ch'.down = ch.down) → Frame s s1 := by
    intro g f s1 h hf
    obtain ⟨ch, ch', hg, hfc, rfl⟩ := comm_eq h
    exact ⟨rfl, rfl, rfl, rfl, rfl, rfl, rfl, rfl, rfl, rfl, rfl, rfl, set_down hg (hf _ _ hfc)⟩
  have hgoto : ∀ {s1 : Sys} j t', Frame s s1 → Frame s (s1.goto j t') := by
    intro s1 j t' h
    exact ⟨h.1, h.2, h.3, h.4, h.5, h.6, h.7, h.8, h.9, h.10, h.11, h.12, h.13⟩
  have pS : ∀ p ch ch', Chans.pushSend p ch = some ch' → ch'.down = ch.down := by
    intro p ch ch' h; rw [push_down h]
  have pR : ∀ p ch ch', Chans.pushRecv p ch = some ch' → ch'.down = ch.down := by
    intro p ch ch' h; rw [push_down h]
  have pP : ∀ p ch ch', Chans.pushPoll p ch = some ch' → ch'.down = ch.down := by
    intro p ch ch' h; rw [push_down h]
  have pQ : ∀ p ch ch', Chans.pushReply p ch = some ch' → ch'.down = ch.down := by
    intro p ch ch' h; rw [push_down h]
  unfold Sys.step at h
  split at h
  all_goals
    try (obtain ⟨g, hg, rfl⟩ := Option.map_eq_some_iff.mp h)
    first
    | exact triv _ _ _ rfl rfl rfl rfl rfl rfl rfl rfl rfl rfl rfl rfl rfl
    | exact hgoto _ _ (comm hg (pS _))
    | exact hgoto _ _ (comm hg (pR _))
    | exact hgoto _ _ (comm hg (pP _))
    | exact hgoto _ _ (comm hg (pQ _))
    | (have h1 := comm hg (pS _)
       exact ⟨h1.1, h1.2, h1.3, h1.4, h1.5, h1.6, h1.7, h1.8, h1.9, h1.10, h1.11, h1.12, h1.13⟩)
    | (have h1 := comm hg (pP _)
       exact ⟨h1.1, h1.2, h1.3, h1.4, h1.5, h1.6, h1.7, h1.8, h1.9, h1.10, h1.11, h1.12, h1.13⟩)
    | (try dsimp only at h
       repeat' split at h
       all_goals first
       | (cases h; exact triv _ _ _ rfl rfl rfl rfl rfl rfl rfl rfl rfl rfl rfl rfl rfl)
       | (cases h; exact ⟨rfl, rfl, rfl, rfl, rfl, rfl, rfl, rfl, rfl, rfl, rfl, rfl, rfl⟩)
       | (cases h; exact ⟨rfl, rfl, rfl, rfl, rfl, rfl, rfl, rfl, rfl, rfl, rfl, rfl,
           set_down (by assumption) (by rfl)⟩)
       | (cases h; done))

/-- The goroutine steps that panic. -/
theorem step_crash {P : Params} {s s' : Sys} {i : Nat} {t : Thread} {c : Choice} {f : Fault}
    (hn : s.crashed = none) (h : s.step P i t c = some s') (hf : s'.crashed = some f) :
    (t = .prInit ∧ P.me = .error f) ∨ (∃ p, t = .rlParse p ∧ unmarshal p.data = .error f) ∨
    (∃ b, t = .rdCheck b none ∧ c = .next ∧ s.shutdown = false ∧ f = .nilDereference) ∨
    (t = .duInit ∧ c = .next ∧ tickerPeriod P.maxFPS = .error f) ∨
    (∃ p, t = .hStart p ∧ c = .next ∧ s.callbacks.get p.getOpCode = some .nil ∧ f = .nilDereference) := by
  have comm : ∀ {g : Nat} {f : Chans → Option Chans} {s1 : Sys} (_ : s.comm g f = some s1),
      s1.crashed = none := by
    intro g f s1 h
    obtain ⟨ch, ch', hg, hfc, rfl⟩ := comm_eq h
    exact hn
  have no : s'.crashed ≠ none := by rw [hf]; nofun
  unfold Sys.step at h
  split at h
  all_goals
    try (obtain ⟨g, hg, rfl⟩ := Option.map_eq_some_iff.mp h)
    first
    | exact absurd hn no
    | exact absurd (comm hg) no
    | (try dsimp only at h
       repeat' split at h
       all_goals first
       | (cases h; done)
       | (cases h; exact absurd hn no)
       | (cases h; cases hf; exact .inl ⟨rfl, by assumption⟩)
       | (cases h; cases hf; exact .inr (.inl ⟨_, rfl, by assumption⟩))
       | (cases h; cases hf; exact .inr (.inr (.inl ⟨_, rfl, rfl, by simpa using ‹¬ s.shutdown = true›, rfl⟩)))
       | (cases h; cases hf; exact .inr (.inr (.inr (.inl ⟨rfl, rfl, by assumption⟩))))
       | (cases h; cases hf; exact .inr (.inr (.inr (.inr ⟨_, rfl, rfl, by assumption, rfl⟩)))))

end Verif.Conc
