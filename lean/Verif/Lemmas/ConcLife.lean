import Verif.Lemmas.ConcRead
/-
The life cycle: which channels, connections and flags go with which phase.
-/
namespace Verif.Conc
open Packet Code Artnet

/-- The index of the last element. -/
def lastIdx (l : List α) : Option Nat := if l.length = 0 then none else some (l.length - 1)

theorem lastIdx_append (l : List α) (a : α) : lastIdx (l ++ [a]) = some l.length := by
  simp [lastIdx]

theorem lastIdx_set (l : List α) (i : Nat) (a : α) : lastIdx (l.set i a) = lastIdx l := by
  simp [lastIdx]

theorem lastIdx_get {l : List α} {k : Nat} (h : lastIdx l = some k) : l[k]? = l.getLast? := by
  simp only [lastIdx] at h
  split at h
  · cases h
  · cases h; rw [List.getLast?_eq_getElem?]

theorem lastIdx_none {l : List α} : lastIdx l = none ↔ l = [] := by
  simp [lastIdx]

theorem lastIdx_lt {l : List α} {k : Nat} (h : lastIdx l = some k) : k < l.length := by
  simp only [lastIdx] at h
  split at h
  · cases h
  · cases h; omega

structure Life (P : Params) (s : Sys) : Prop where
  cur : s.cur = lastIdx s.chans
  conn : s.conn = lastIdx s.conns
  ccur : s.ccur = lastIdx s.cdown
  shut : s.shutdown = true ↔ s.phase ≠ .started
  listening : s.control = .listening → s.phase = .started
  stopping : s.phase = .stopping ↔ (s.control = .closing ∨ s.control = .disconnecting ∨ s.control = .ending)
  fresh : s.phase = .fresh → s.chans = [] ∧ s.conns = []
  valid : s.chans ≠ [] → P.config.validate = .ok none
  started : s.phase = .started → ∃ ch, s.chans.getLast? = some ch ∧ ch.down = false
  closed : s.control = .disconnecting ∨ s.control = .ending ∨ s.phase = .stopped →
    ∃ ch, s.chans.getLast? = some ch ∧ ch.down = true
  unplugged : s.control = .ending ∨ s.phase = .stopped → ∀ k, s.conn = some k → s.conns[k]? = some false
  copen : P.controller = true → ∀ ch, s.chans.getLast? = some ch → ch.down = false →
    s.cdown.getLast? = some false
  cclosing : P.controller = true → s.control = .disconnecting ∨ s.control = .ending →
    s.cdown.getLast? = some false
  cclosed : P.controller = true → s.phase = .stopped → s.cdown.getLast? = some true
  ending : s.control = .ending → P.controller = true
  tickers : s.tickers = true → P.controller = true ∧ s.conns ≠ []
  wired : P.controller = true → s.conns ≠ [] → s.tickers = true
  /-- goroutines other than callers need a connection -/
  threads : s.conns = [] → ∀ t ∈ s.threads, t = .done ∨ ∃ d a, t = .caller d a

theorem getLast?_set {l : List α} {i : Nat} {a b : α} (h : l.getLast? = some b) :
    (l.set i a).getLast? = some (if i = l.length - 1 then a else b) := by
  rw [List.getLast?_eq_getElem?] at h ⊢
  rw [List.length_set]
  have hl : l.length - 1 < l.length := (List.getElem?_eq_some_iff.mp h).1
  by_cases hi : i = l.length - 1
  · subst hi; rw [List.getElem?_set_self hl]; simp
  · rw [List.getElem?_set_ne hi, h, if_neg hi]

/-- A change of a channel that does not close it. -/
theorem Life.setCh {P : Params} {s : Sys} {g : Nat} {ch ch' : Chans} (h : Life P s)
    (hg : s.chans[g]? = some ch) (hd : ch'.down = ch.down) : Life P (s.setCh g ch') := by
  have hlast : ∀ x, (s.chans.set g ch').getLast? = some x →
      ∃ y, s.chans.getLast? = some y ∧ x.down = y.down := by
    intro x hx
    rw [List.getLast?_eq_getElem?, List.length_set] at hx
    rw [List.getLast?_eq_getElem?]
    by_cases hi : g = s.chans.length - 1
    · rw [← hi] at hx ⊢
      rw [List.getElem?_set_self (List.getElem?_eq_some_iff.mp hg).1] at hx
      cases hx
      exact ⟨ch, hg, hd⟩
    · rw [List.getElem?_set_ne hi] at hx
      exact ⟨x, hx, rfl⟩
  have hlast' : ∀ y, s.chans.getLast? = some y →
      ∃ x, (s.chans.set g ch').getLast? = some x ∧ x.down = y.down := by
    intro y hy
    refine ⟨_, getLast?_set hy, ?_⟩
    split
    · rename_i hi
      rw [List.getLast?_eq_getElem?, ← hi, hg] at hy
      cases hy
      exact hd
    · rfl
  have hne : (s.chans.set g ch') ≠ [] → s.chans ≠ [] := by
    intro h1 h2; rw [h2] at h1; exact h1 rfl
  exact {
    cur := by rw [show (s.setCh g ch').chans = s.chans.set g ch' from rfl, lastIdx_set]; exact h.cur
    conn := h.conn, ccur := h.ccur, shut := h.shut, listening := h.listening, stopping := h.stopping
    fresh := fun hf => ⟨by show s.chans.set g ch' = []; rw [(h.fresh hf).1]; rfl, (h.fresh hf).2⟩
    valid := fun hv => h.valid (hne hv)
    started := fun hs => by
      obtain ⟨y, hy, hd⟩ := h.started hs
      obtain ⟨x, hx, hxd⟩ := hlast' y hy
      exact ⟨x, hx, hxd.trans hd⟩
    closed := fun hs => by
      obtain ⟨y, hy, hd⟩ := h.closed hs
      obtain ⟨x, hx, hxd⟩ := hlast' y hy
      exact ⟨x, hx, hxd.trans hd⟩
    unplugged := h.unplugged
    copen := fun hc x hx hd => by
      obtain ⟨y, hy, hxd⟩ := hlast x hx
      exact h.copen hc y hy (hxd ▸ hd)
    cclosing := h.cclosing, cclosed := h.cclosed, ending := h.ending, tickers := h.tickers, wired := h.wired
    threads := h.threads }

/-- Changes of fields that the life cycle does not depend on, and of the goroutines. -/
theorem Life.frame {P : Params} {s s' : Sys} (h : Life P s)
    (h1 : s'.cur = s.cur) (h2 : s'.chans = s.chans) (h3 : s'.conn = s.conn) (h4 : s'.conns = s.conns)
    (h5 : s'.ccur = s.ccur) (h6 : s'.cdown = s.cdown) (h7 : s'.shutdown = s.shutdown)
    (h8 : s'.phase = s.phase) (h9 : s'.control = s.control) (h10 : s'.tickers = s.tickers)
    (ht : s.conns = [] → (∀ t ∈ s.threads, t = .done ∨ ∃ d a, t = .caller d a) →
      ∀ t ∈ s'.threads, t = .done ∨ ∃ d a, t = .caller d a) : Life P s' := by
  refine ⟨?_, ?_, ?_, ?_, ?_, ?_, ?_, ?_, ?_, ?_, ?_, ?_, ?_, ?_, ?_, ?_, ?_, ?_⟩
  case refine_18 => rw [h4]; exact fun hc => ht hc (h.threads hc)
  all_goals simp only [h1, h2, h3, h4, h5, h6, h7, h8, h9, h10]
  · exact h.cur
  · exact h.conn
  · exact h.ccur
  · exact h.shut
  · exact h.listening
  · exact h.stopping
  · exact h.fresh
  · exact h.valid
  · exact h.started
  · exact h.closed
  · exact h.unplugged
  · exact h.copen
  · exact h.cclosing
  · exact h.cclosed
  · exact h.ending
  · exact h.tickers
  · exact h.wired

/-- A step of a goroutine that has a connection, or of a caller. -/
theorem Life.goto {P : Params} {s : Sys} {i : Nat} {t t' : Thread} (h : Life P s)
    (ht : s.threads[i]? = some t) (hn : t ≠ .done) (hc : ∀ d a, t = .caller d a → t' = .done) :
    Life P (s.goto i t') := by
  refine h.frame rfl rfl rfl rfl rfl rfl rfl rfl rfl rfl ?_
  intro _ h1
  refine all_set h1 ?_
  rcases h1 _ (List.mem_of_getElem? ht) with h2 | ⟨d, a, h2⟩
  · exact absurd h2 hn
  · exact .inl (hc d a h2)

theorem Life.log {P : Params} {s s' : Sys} (h : Life P s)
    (h1 : s'.cur = s.cur) (h2 : s'.chans = s.chans) (h3 : s'.conn = s.conn) (h4 : s'.conns = s.conns)
    (h5 : s'.ccur = s.ccur) (h6 : s'.cdown = s.cdown) (h7 : s'.shutdown = s.shutdown)
    (h8 : s'.phase = s.phase) (h9 : s'.control = s.control) (h10 : s'.tickers = s.tickers)
    (h11 : s'.threads = s.threads) : Life P s' :=
  h.frame h1 h2 h3 h4 h5 h6 h7 h8 h9 h10 fun _ h => by rw [h11]; exact h

theorem Life.spawn {P : Params} {s : Sys} {i : Nat} {t t' u : Thread} (h : Life P s)
    (ht : s.threads[i]? = some t) (hn : t ≠ .done) (hc : ∀ d a, t ≠ .caller d a) :
    Life P { s.goto i t' with threads := (s.goto i t').threads ++ [u] } := by
  refine h.frame rfl rfl rfl rfl rfl rfl rfl rfl rfl rfl ?_
  intro _ h1
  rcases h1 _ (List.mem_of_getElem? ht) with h2 | ⟨d, a, h2⟩
  · exact absurd h2 hn
  · exact absurd h2 (hc d a)

/-- Only a fresh system can have an invalid configuration. -/
theorem Life.isFresh {P : Params} {s : Sys} (h : Life P s) (hc : s.control = .idle)
    (hv : P.config.validate ≠ .ok none) : s.phase = .fresh := by
  cases hp : s.phase with
  | fresh => rfl
  | started =>
    obtain ⟨ch, hl, _⟩ := h.started hp
    exact absurd (h.valid (by intro h0; rw [h0] at hl; cases hl)) hv
  | stopping => have := h.stopping.mp hp; rw [hc] at this; simp at this
  | stopped =>
    obtain ⟨ch, hl, _⟩ := h.closed (.inr (.inr hp))
    exact absurd (h.valid (by intro h0; rw [h0] at hl; cases hl)) hv

theorem Life.resetTables {P : Params} {s : Sys} (h : Life P s) (hp : s.phase ≠ .stopped) :
    Life P s.resetTables where
  cur := h.cur
  conn := h.conn
  ccur := (lastIdx_append _ _).symm
  shut := h.shut
  listening := h.listening
  stopping := h.stopping
  fresh := h.fresh
  valid := h.valid
  started := h.started
  closed := h.closed
  unplugged := h.unplugged
  copen := by intros; simp [Sys.resetTables]
  cclosing := by intros; simp [Sys.resetTables]
  cclosed := fun _ h => absurd h hp
  ending := h.ending
  tickers := h.tickers
  wired := h.wired
  threads := h.threads

theorem life {P : Params} {s : Sys} (h : Reach P s) : Life P s := by
  refine Reach.induct (P := P) (I := Life P) ?_ ?_ h
  · constructor <;> simp [Sys.init, lastIdx]
  intro s s' _ ih _ hst
  cases hst with
  | move ht m => exact ih.goto ht (by cases m <;> nofun) (by cases m <;> nofun)
  | popPoll ht hg _ | popRecv ht hg _ | popReply ht hg _ | popSend ht hg _
  | pushRecv ht hg _ | pushPoll ht hg _ | pushReply ht hg _ =>
    exact (ih.setCh hg (by rfl)).goto ht nofun nofun
  | pushSend ht hk hg _ => exact (ih.setCh hg (by rfl)).goto ht (by cases hk <;> nofun) (by cases hk <;> nofun)
  | pushOwn ht hg _ =>
    exact ((ih.setCh hg (by rfl)).goto ht nofun nofun).log rfl rfl rfl rfl rfl rfl
      rfl rfl rfl rfl rfl
  | pushDmx ht hg _ =>
    exact ((ih.setCh hg (by rfl)).goto ht nofun nofun).log rfl rfl rfl
      rfl rfl rfl rfl rfl rfl rfl rfl
  | write ht | reject ht | lose ht | drop ht | arrive ht | accept ht | gc ht | reply ht | sendDMX ht
  | ignore ht | lock ht | unlock ht | tickAt ht =>
    exact (ih.goto ht nofun (t' := _) (by intro d a h; cases h <;> rfl)).log rfl rfl rfl rfl rfl rfl rfl rfl
      rfl rfl rfl
  | call ht hh hc =>
    exact (ih.goto ht nofun (t' := _) nofun).log rfl rfl rfl rfl rfl rfl rfl rfl rfl rfl rfl
  | spawnReader ht | spawnHandler ht => exact ih.spawn ht nofun nofun
  | spawnCaller =>
    exact ih.frame rfl rfl rfl rfl rfl rfl rfl rfl rfl rfl
      fun _ h => all_append h (all_one (.inr ⟨_, _, rfl⟩))
  | panic | register | deregister | noRegister => exact ih.log rfl rfl rfl rfl rfl rfl rfl rfl rfl rfl rfl
  | startPanic hc hv =>
    have hf := ih.isFresh hc (by rw [hv]; nofun)
    simp only [Sys.reset]
    split
    · exact (ih.resetTables (by rw [hf]; nofun)).log rfl rfl rfl rfl rfl rfl rfl rfl rfl rfl rfl
    · exact ih.log rfl rfl rfl rfl rfl rfl rfl rfl rfl rfl rfl
  | startFail hc hv =>
    have hf := ih.isFresh hc (by rw [hv]; nofun)
    simp only [Sys.reset]
    split
    · exact (ih.resetTables (by rw [hf]; nofun)).log rfl rfl rfl rfl rfl rfl rfl rfl rfl rfl rfl
    · exact ih.log rfl rfl rfl rfl rfl rfl rfl rfl rfl rfl rfl
  | start hc hv =>
    have hcc : (s.reset P).ccur = lastIdx (s.reset P).cdown ∧
        (P.controller = true → (s.reset P).cdown.getLast? = some false) := by
      simp only [Sys.reset]
      split
      · exact ⟨(lastIdx_append _ _).symm, fun _ => by simp [Sys.resetTables]⟩
      · exact ⟨ih.ccur, fun h => absurd h (by assumption)⟩
    have h1 : (s.reset P).conn = s.conn ∧ (s.reset P).conns = s.conns ∧ (s.reset P).tickers = s.tickers ∧
        (s.reset P).threads = s.threads := by
      simp only [Sys.reset]; split <;> exact ⟨rfl, rfl, rfl, rfl⟩
    exact {
      cur := (lastIdx_append _ _).symm
      conn := by simpa only [Sys.makeChannels, h1] using ih.conn
      ccur := hcc.1
      shut := by simp [Sys.makeChannels]
      listening := fun _ => rfl
      stopping := by simp [Sys.makeChannels]
      fresh := nofun
      valid := fun _ => hv
      started := fun _ => ⟨Chans.make, by simp [Sys.makeChannels], rfl⟩
      closed := by simp [Sys.makeChannels]
      unplugged := by simp [Sys.makeChannels]
      copen := fun hp _ _ _ => hcc.2 hp
      cclosing := by simp [Sys.makeChannels]
      cclosed := by simp [Sys.makeChannels]
      ending := nofun
      tickers := by simpa only [Sys.makeChannels, h1] using ih.tickers
      wired := by simpa only [Sys.makeChannels, h1] using ih.wired
      threads := by simpa only [Sys.makeChannels, h1] using ih.threads }
  | listen hc =>
    have hp := ih.listening hc
    exact {
      cur := ih.cur
      conn := (lastIdx_append _ _).symm
      ccur := ih.ccur
      shut := ih.shut
      listening := nofun
      stopping := by simp [hp]
      fresh := by simp [hp]
      valid := ih.valid
      started := ih.started
      closed := by simp [hp]
      unplugged := by simp [hp]
      copen := ih.copen
      cclosing := by simp
      cclosed := by simp [hp]
      ending := nofun
      tickers := by
        intro h
        simp only [Bool.or_eq_true] at h
        rcases h with h | h
        · exact ⟨(ih.tickers h).1, by simp⟩
        · exact ⟨h, by simp⟩
      wired := by intro h _; simp [h]
      threads := by simp }
  | listenFail hc =>
    have hp := ih.listening hc
    exact {
      cur := ih.cur
      conn := ih.conn
      ccur := ih.ccur
      shut := ih.shut
      listening := nofun
      stopping := by simp [hp]
      fresh := by simp [hp]
      valid := ih.valid
      started := ih.started
      closed := by simp [hp]
      unplugged := by simp [hp]
      copen := ih.copen
      cclosing := by simp
      cclosed := by simp [hp]
      ending := nofun
      tickers := ih.tickers
      wired := ih.wired
      threads := ih.threads }
  | stop hc ht => exact {
      cur := ih.cur
      conn := ih.conn
      ccur := ih.ccur
      shut := by simp
      listening := nofun
      stopping := by simp
      fresh := nofun
      valid := ih.valid
      started := nofun
      closed := by simp
      unplugged := by simp
      copen := ih.copen
      cclosing := by simp
      cclosed := nofun
      ending := nofun
      tickers := ih.tickers
      wired := ih.wired
      threads := ih.threads }
  | @close g ch hc h hg hd =>
    have hp : s.phase = .stopping := ih.stopping.mpr (.inl hc)
    have hlast : s.chans.getLast? = some ch := by
      rw [← lastIdx_get (by rw [← ih.cur]; exact h)]; exact hg
    have hlast' : (s.chans.set g { ch with down := true }).getLast? = some { ch with down := true } := by
      rw [getLast?_set hlast, if_pos]
      have := ih.cur.symm.trans h
      simp only [lastIdx] at this
      split at this <;> cases this
      rfl
    exact {
      cur := by
        show s.cur = lastIdx (s.chans.set g { ch with down := true })
        rw [lastIdx_set]; exact ih.cur
      conn := ih.conn
      ccur := ih.ccur
      shut := ih.shut
      listening := nofun
      stopping := by simp [Sys.setCh, hp]
      fresh := by simp [Sys.setCh, hp]
      valid := fun _ => ih.valid (by intro h0; rw [h0] at hlast; cases hlast)
      started := by simp [Sys.setCh, hp]
      closed := fun _ => ⟨_, hlast', rfl⟩
      unplugged := by simp [Sys.setCh, hp]
      copen := by
        intro _ x hx hxd
        rw [show (_ : Sys).chans = s.chans.set g { ch with down := true } from rfl, hlast'] at hx
        cases hx; cases hxd
      cclosing := fun hP _ => ih.copen hP ch hlast hd
      cclosed := by simp [Sys.setCh, hp]
      ending := nofun
      tickers := ih.tickers
      wired := ih.wired
      threads := ih.threads }
  | disconnectC hc hP =>
    have hp : s.phase = .stopping := ih.stopping.mpr (.inr (.inl hc))
    have hcl : lastIdx s.closeConn = lastIdx s.conns := by
      simp only [Sys.closeConn]; split
      · rfl
      · exact lastIdx_set _ _ _
    have hne : s.closeConn ≠ [] ↔ s.conns ≠ [] := by rw [ne_eq, ← lastIdx_none, hcl, lastIdx_none]
    exact {
      cur := ih.cur
      conn := by rw [hcl]; exact ih.conn
      ccur := ih.ccur
      shut := ih.shut
      listening := nofun
      stopping := by simp [hp]
      fresh := by simp [hp]
      valid := ih.valid
      started := by simp [hp]
      closed := fun _ => ih.closed (.inl hc)
      unplugged := by
        intro _ k hk
        have hk : s.conn = some k := hk
        simp only [Sys.closeConn, hk]
        rw [List.getElem?_set_self (lastIdx_lt (by rw [← ih.conn]; exact hk))]
      copen := ih.copen
      cclosing := fun h _ => ih.cclosing h (.inl hc)
      cclosed := by simp [hp]
      ending := fun _ => hP
      tickers := fun h => ⟨(ih.tickers h).1, hne.mpr (ih.tickers h).2⟩
      wired := fun h h' => ih.wired h (hne.mp h')
      threads := fun h => ih.threads (Classical.not_not.mp fun h' => hne.mpr h' h) }
  | disconnect hc hP =>
    have hp : s.phase = .stopping := ih.stopping.mpr (.inr (.inl hc))
    have hcl : lastIdx s.closeConn = lastIdx s.conns := by
      simp only [Sys.closeConn]; split
      · rfl
      · exact lastIdx_set _ _ _
    have hne : s.closeConn ≠ [] ↔ s.conns ≠ [] := by rw [ne_eq, ← lastIdx_none, hcl, lastIdx_none]
    exact {
      cur := ih.cur
      conn := by rw [hcl]; exact ih.conn
      ccur := ih.ccur
      shut := by simpa [hp] using ih.shut
      listening := nofun
      stopping := by simp
      fresh := by simp
      valid := ih.valid
      started := by simp
      closed := fun _ => ih.closed (.inl hc)
      unplugged := by
        intro _ k hk
        have hk : s.conn = some k := hk
        simp only [Sys.closeConn, hk]
        rw [List.getElem?_set_self (lastIdx_lt (by rw [← ih.conn]; exact hk))]
      copen := ih.copen
      cclosing := by simp
      cclosed := by intro h; rw [hP] at h; cases h
      ending := nofun
      tickers := fun h => ⟨(ih.tickers h).1, hne.mpr (ih.tickers h).2⟩
      wired := fun h h' => ih.wired h (hne.mp h')
      threads := fun h => ih.threads (Classical.not_not.mp fun h' => hne.mpr h' h) }
  | @ended k hc h hk =>
    have hp : s.phase = .stopping := ih.stopping.mpr (.inr (.inr hc))
    have hP := ih.ending hc
    have hlast := ih.cclosing hP (.inr hc)
    have hlast' : (s.cdown.set k true).getLast? = some true := by
      rw [getLast?_set hlast, if_pos]
      have := ih.ccur.symm.trans h
      simp only [lastIdx] at this
      split at this <;> cases this
      rfl
    exact {
      cur := ih.cur
      conn := ih.conn
      ccur := by rw [lastIdx_set]; exact ih.ccur
      shut := by simpa [hp] using ih.shut
      listening := nofun
      stopping := by simp
      fresh := by simp
      valid := ih.valid
      started := by simp
      closed := fun _ => ih.closed (.inr (.inl hc))
      unplugged := fun _ => ih.unplugged (.inl hc)
      copen := by
        intro _ x hx hxd
        obtain ⟨y, hy, hyd⟩ := ih.closed (.inr (.inl hc))
        have hx : s.chans.getLast? = some x := hx
        rw [hy] at hx; cases hx
        rw [hyd] at hxd; cases hxd
      cclosing := by simp
      cclosed := fun _ _ => hlast'
      ending := nofun
      tickers := ih.tickers
      wired := ih.wired
      threads := ih.threads }

end Verif.Conc
