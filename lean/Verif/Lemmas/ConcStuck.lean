import Verif.Lemmas.ConcLin
/-
Goroutines that can never go on: the queue they send to is full and nobody is left to empty it.
-/
namespace Verif.Conc
open Packet Code Artnet

/-- Goroutine `i` is at `th`, which sends to a queue of the first generation; the queue (of length `L`) is
full; nobody waits to receive from it (`W`), and no consumer (`K`) will. -/
structure Stuck (W : Thread) (K : Thread → Bool) (L : Chans → Nat) (i : Nat) (th : Thread) (s : Sys) : Prop where
  thr : s.threads[i]? = some th
  full : ∃ ch, s.chans[0]? = some ch ∧ capacity ≤ L ch
  quiet : ∀ t ∈ s.threads, t ≠ W
  gone : s.cur = some 0 → s.control ≠ .listening ∧ ∀ t ∈ s.threads, K t = false

theorem Stuck.move {W K L i th s} (h : Stuck W K L i th s) {s' : Sys} {j : Nat} {t t' : Thread}
    (hj : s.threads[j]? = some t) (hth : s'.threads = s.threads.set j t') (hne : t ≠ th)
    (hW : t' = W → s.cur = some 0 ∧ K t = true) (hK : K t' = true → K t = true) (hcur : s'.cur = s.cur)
    (hctl : s'.control = s.control) (hf : ∃ ch, s'.chans[0]? = some ch ∧ capacity ≤ L ch) :
    Stuck W K L i th s' := by
  have hm : t ∈ s.threads := List.mem_of_getElem? hj
  refine ⟨?_, hf, ?_, ?_⟩
  · rw [hth, List.getElem?_set_ne]
    · exact h.thr
    · rintro rfl
      rw [h.thr] at hj
      exact hne (Option.some.inj hj).symm
  · intro u hu
    rw [hth] at hu
    rcases List.mem_or_eq_of_mem_set hu with hu | hu
    · exact h.quiet u hu
    · rintro rfl
      obtain ⟨h1, h2⟩ := hW hu.symm
      rw [(h.gone h1).2 t hm] at h2
      cases h2
  · intro hc
    rw [hcur] at hc
    obtain ⟨h1, h2⟩ := h.gone hc
    refine ⟨by rw [hctl]; exact h1, ?_⟩
    intro u hu
    rw [hth] at hu
    rcases List.mem_or_eq_of_mem_set hu with hu | rfl
    · exact h2 u hu
    · cases hk : K u with
      | false => rfl
      | true => rw [← h2 t hm, hK hk]

theorem Stuck.spawn {W K L i th s} (h : Stuck W K L i th s) {s' : Sys} {us : List Thread}
    (hth : s'.threads = s.threads ++ us) (hW : ∀ u ∈ us, u ≠ W)
    (hK : s.cur = some 0 → s.control ≠ .listening → ∀ u ∈ us, K u = false) (hcur : s'.cur = s.cur)
    (hctl : s.control ≠ .listening → s'.control ≠ .listening) (hf : s'.chans = s.chans) :
    Stuck W K L i th s' := by
  refine ⟨?_, by rw [hf]; exact h.full, ?_, ?_⟩
  · rw [hth, List.getElem?_append_left]
    · exact h.thr
    · exact (List.getElem?_eq_some_iff.mp h.thr).1
  · intro u hu
    rw [hth, List.mem_append] at hu
    exact hu.elim (h.quiet u) (hW u)
  · intro hc
    rw [hcur] at hc
    obtain ⟨h1, h2⟩ := h.gone hc
    refine ⟨hctl h1, ?_⟩
    intro u hu
    rw [hth, List.mem_append] at hu
    exact hu.elim (h2 u) (hK hc h1 u)

theorem Stuck.idle {W K L i th s} (h : Stuck W K L i th s) {s' : Sys} (hth : s'.threads = s.threads)
    (hcur : s'.cur = s.cur) (hctl : s.control ≠ .listening → s'.control ≠ .listening)
    (hf : ∃ ch, s'.chans[0]? = some ch ∧ capacity ≤ L ch) : Stuck W K L i th s' := by
  refine ⟨by rw [hth]; exact h.thr, hf, by rw [hth]; exact h.quiet, ?_⟩
  rw [hth, hcur]
  exact fun hc => ⟨hctl (h.gone hc).1, (h.gone hc).2⟩

theorem Stuck.set {W K L i th s} (h : Stuck W K L i th s) {g : Nat} {ch ch' : Chans}
    (hg : s.chans[g]? = some ch) (hl : g = 0 → L ch ≤ L ch') :
    ∃ ch, (s.chans.set g ch')[0]? = some ch ∧ capacity ≤ L ch := by
  obtain ⟨c0, h0, hc⟩ := h.full
  by_cases hz : g = 0
  · subst hz
    rw [h0] at hg
    cases hg
    refine ⟨ch', List.getElem?_set_self (List.getElem?_eq_some_iff.mp h0).1, ?_⟩
    have := hl rfl
    omega
  · rw [List.getElem?_set_ne hz]
    exact ⟨c0, h0, hc⟩

theorem Stuck.start {W K L i th s} (h : Stuck W K L i th s) {s' : Sys} (hth : s'.threads = s.threads)
    (hcur : s'.cur = some s.chans.length) (hf : s'.chans = s.chans ++ [Chans.make]) :
    Stuck W K L i th s' := by
  obtain ⟨c0, h0, hc⟩ := h.full
  have hlt := (List.getElem?_eq_some_iff.mp h0).1
  refine ⟨by rw [hth]; exact h.thr, ⟨c0, ?_, hc⟩, by rw [hth]; exact h.quiet, ?_⟩
  · rw [hf, List.getElem?_append_left hlt]; exact h0
  · rw [hcur]
    intro hx
    have := Option.some.inj hx
    omega

def isRl : Thread → Bool
  | .rlInit | .rlTop | .rlWait _ | .rlParse _ => true
  | _ => false

def isSl : Thread → Bool
  | .slTop | .slWait _ | .slCheck _ | .slWrite _ => true
  | _ => false

/-- The reader at a full receive queue. -/
def RecvStuck (i : Nat) (b : Bytes) (p : Payload) : Sys → Prop :=
  Stuck (.rlWait 0) isRl (fun c => c.recv.length) i (.rdPush 0 b p)

/-- The update loop at a full send queue. -/
def SendStuck (i : Nat) (e : Emission) (pend : List Emission) (rest : List (Address × Ref)) (now : Int) :
    Sys → Prop :=
  Stuck (.slWait 0) isSl (fun c => c.send.length) i (.duSend 0 e pend rest now)

theorem recvStuck_step {P : Params} {s s' : Sys} {i b p} (h : RecvStuck i b p s) (hst : Step P s s') :
    RecvStuck i b p s' := by
  cases hst with
  | panic _ => exact h.idle rfl rfl id h.full
  | move ht m =>
    refine h.move ht rfl ?_ ?_ ?_ rfl rfl h.full
    · rintro rfl; cases m
    · intro hx; cases m <;> first | (cases hx; exact ⟨by assumption, rfl⟩) | cases hx
    · intro hx; cases m <;> first | rfl | cases hx
  | popPoll ht hg hq => exact h.move ht rfl nofun nofun nofun rfl rfl (h.set hg fun _ => Nat.le_refl _)
  | popSend ht hg hq => exact h.move ht rfl nofun nofun nofun rfl rfl (h.set hg fun _ => Nat.le_refl _)
  | popRecv ht hg hq =>
    refine h.move ht rfl nofun nofun (fun _ => rfl) rfl rfl (h.set hg ?_)
    rintro rfl
    exact absurd rfl (h.quiet _ (List.mem_of_getElem? ht))
  | popReply ht hg hq => exact h.move ht rfl nofun nofun nofun rfl rfl (h.set hg fun _ => Nat.le_refl _)
  | pushSend ht k hg hl =>
    refine h.move ht rfl ?_ ?_ ?_ rfl rfl (h.set hg fun _ => Nat.le_refl _)
    · rintro rfl; cases k
    · intro hx; cases k <;> cases hx
    · intro hx; cases k <;> cases hx
  | pushDmx ht hg hl => exact h.move ht rfl nofun nofun nofun rfl rfl (h.set hg fun _ => Nat.le_refl _)
  | @pushRecv j g b' p' ch ht hg hl =>
    refine h.move ht rfl ?_ nofun nofun rfl rfl (h.set hg ?_)
    · intro hx
      cases hx
      obtain ⟨c0, h0, hc⟩ := h.full
      rw [h0] at hg
      cases hg
      omega
    · intro _; simp
  | pushPoll ht hg hl => exact h.move ht rfl nofun nofun nofun rfl rfl (h.set hg fun _ => Nat.le_refl _)
  | pushOwn ht hg hl => exact h.move ht rfl nofun nofun nofun rfl rfl (h.set hg fun _ => Nat.le_refl _)
  | pushReply ht hg hl => exact h.move ht rfl nofun nofun nofun rfl rfl (h.set hg fun _ => Nat.le_refl _)
  | write ht _ _ => exact h.move ht rfl nofun nofun nofun rfl rfl h.full
  | spawnReader ht =>
    have h1 : RecvStuck i b p (s.goto _ .rlTop) := h.move ht rfl nofun nofun (fun _ => rfl) rfl rfl h.full
    exact h1.spawn (by rfl) (by simp) (by simp [isRl]) rfl id rfl
  | spawnHandler ht hu =>
    have h1 : RecvStuck i b p (s.goto _ .rlTop) := h.move ht rfl nofun nofun (fun _ => rfl) rfl rfl h.full
    exact h1.spawn (by rfl) (by simp) (by simp [isRl]) rfl id rfl
  | reject ht _ _ => exact h.move ht rfl nofun nofun (fun _ => rfl) rfl rfl h.full
  | arrive ht _ => exact h.move ht rfl nofun nofun nofun rfl rfl h.full
  | lose ht _ => exact h.move ht rfl nofun nofun nofun rfl rfl h.full
  | accept ht _ _ => exact h.move ht rfl nofun nofun nofun rfl rfl h.full
  | drop ht _ => exact h.move ht rfl nofun nofun nofun rfl rfl h.full
  | call ht _ hc =>
    refine h.move ht rfl nofun ?_ ?_ rfl rfl h.full
    · intro hx; cases hc <;> cases hx
    · intro hx; cases hc <;> cases hx
  | gc ht _ => exact h.move ht rfl nofun nofun nofun rfl rfl h.full
  | ignore ht _ => exact h.move ht rfl nofun nofun nofun rfl rfl h.full
  | reply ht _ _ => exact h.move ht rfl nofun nofun nofun rfl rfl h.full
  | lock ht _ _ => exact h.move ht rfl nofun nofun nofun rfl rfl h.full
  | unlock ht => exact h.move ht rfl nofun nofun nofun rfl rfl h.full
  | tickAt ht => exact h.move ht rfl nofun nofun nofun rfl rfl h.full
  | sendDMX ht _ => exact h.move ht rfl nofun nofun nofun rfl rfl h.full
  | startPanic _ _ =>
    refine h.idle ?_ ?_ ?_ ?_ <;> simp only [Sys.reset, Sys.panic, Sys.resetTables] <;> split <;>
      first | rfl | exact id | exact h.full
  | startFail _ _ =>
    refine h.idle ?_ ?_ ?_ ?_ <;> simp only [Sys.reset, Sys.resetTables] <;> split <;>
      first | rfl | exact id | exact h.full
  | start _ _ =>
    refine h.start ?_ ?_ ?_ <;> simp only [Sys.reset, Sys.makeChannels, Sys.resetTables] <;> split <;> rfl
  | listen hc =>
    refine h.spawn (by rfl) ?_ (fun _ hn => absurd hc hn) rfl (fun _ => nofun) rfl
    intro u hu
    simp only [Params.goroutines] at hu
    split at hu <;> simp at hu
    · rcases hu with rfl | rfl | rfl | rfl | rfl <;> nofun
    · rcases hu with rfl | rfl | rfl <;> nofun
  | listenFail _ => exact h.idle rfl rfl (fun _ => nofun) h.full
  | stop _ _ => exact h.idle rfl rfl (fun _ => nofun) h.full
  | close hc _ hg _ =>
    exact h.idle rfl rfl (fun _ => nofun) (h.set hg fun _ => Nat.le_refl _)
  | disconnectC _ _ => exact h.idle rfl rfl (fun _ => nofun) h.full
  | disconnect _ _ => exact h.idle rfl rfl (fun _ => nofun) h.full
  | ended _ _ _ => exact h.idle rfl rfl (fun _ => nofun) h.full
  | register _ _ => exact h.idle rfl rfl id h.full
  | deregister _ _ => exact h.idle rfl rfl id h.full
  | noRegister _ _ => exact h
  | spawnCaller _ => exact h.spawn (by rfl) (by simp) (by simp [isRl]) rfl id rfl

theorem sendStuck_step {P : Params} {s s' : Sys} {i e pend rest now} (h : SendStuck i e pend rest now s)
    (hst : Step P s s') : SendStuck i e pend rest now s' := by
  cases hst with
  | panic _ => exact h.idle rfl rfl id h.full
  | move ht m =>
    refine h.move ht rfl ?_ ?_ ?_ rfl rfl h.full
    · rintro rfl; cases m
    · intro hx; cases m <;> first | (cases hx; exact ⟨by assumption, rfl⟩) | cases hx
    · intro hx; cases m <;> first | rfl | cases hx
  | popPoll ht hg hq => exact h.move ht rfl nofun nofun nofun rfl rfl (h.set hg fun _ => Nat.le_refl _)
  | popSend ht hg hq =>
    refine h.move ht rfl nofun nofun (fun _ => rfl) rfl rfl (h.set hg ?_)
    rintro rfl
    exact absurd rfl (h.quiet _ (List.mem_of_getElem? ht))
  | popRecv ht hg hq => exact h.move ht rfl nofun nofun nofun rfl rfl (h.set hg fun _ => Nat.le_refl _)
  | popReply ht hg hq => exact h.move ht rfl nofun nofun nofun rfl rfl (h.set hg fun _ => Nat.le_refl _)
  | pushSend ht k hg hl =>
    refine h.move ht rfl ?_ ?_ ?_ rfl rfl (h.set hg fun _ => by simp)
    · rintro rfl; cases k
    · intro hx; cases k <;> cases hx
    · intro hx; cases k <;> cases hx
  | pushDmx ht hg hl =>
    refine h.move ht rfl ?_ nofun nofun rfl rfl (h.set hg fun _ => by simp)
    intro hx
    cases hx
    obtain ⟨c0, h0, hc⟩ := h.full
    rw [h0] at hg
    cases hg
    omega
  | pushRecv ht hg hl => exact h.move ht rfl nofun nofun nofun rfl rfl (h.set hg fun _ => Nat.le_refl _)
  | pushPoll ht hg hl => exact h.move ht rfl nofun nofun nofun rfl rfl (h.set hg fun _ => Nat.le_refl _)
  | pushOwn ht hg hl => exact h.move ht rfl nofun nofun nofun rfl rfl (h.set hg fun _ => Nat.le_refl _)
  | pushReply ht hg hl => exact h.move ht rfl nofun nofun nofun rfl rfl (h.set hg fun _ => Nat.le_refl _)
  | write ht _ _ => exact h.move ht rfl nofun nofun (fun _ => rfl) rfl rfl h.full
  | spawnReader ht =>
    have h1 : SendStuck i e pend rest now (s.goto _ .rlTop) := h.move ht rfl nofun nofun nofun rfl rfl h.full
    exact h1.spawn (by rfl) (by simp) (by simp [isSl]) rfl id rfl
  | spawnHandler ht hu =>
    have h1 : SendStuck i e pend rest now (s.goto _ .rlTop) := h.move ht rfl nofun nofun nofun rfl rfl h.full
    exact h1.spawn (by rfl) (by simp) (by simp [isSl]) rfl id rfl
  | reject ht _ _ => exact h.move ht rfl nofun nofun nofun rfl rfl h.full
  | arrive ht _ => exact h.move ht rfl nofun nofun nofun rfl rfl h.full
  | lose ht _ => exact h.move ht rfl nofun nofun nofun rfl rfl h.full
  | accept ht _ _ => exact h.move ht rfl nofun nofun nofun rfl rfl h.full
  | drop ht _ => exact h.move ht rfl nofun nofun nofun rfl rfl h.full
  | call ht _ hc =>
    refine h.move ht rfl nofun ?_ ?_ rfl rfl h.full
    · intro hx; cases hc <;> cases hx
    · intro hx; cases hc <;> cases hx
  | gc ht _ => exact h.move ht rfl nofun nofun nofun rfl rfl h.full
  | ignore ht _ => exact h.move ht rfl nofun nofun nofun rfl rfl h.full
  | reply ht _ _ => exact h.move ht rfl nofun nofun nofun rfl rfl h.full
  | lock ht _ _ => exact h.move ht rfl nofun nofun nofun rfl rfl h.full
  | unlock ht => exact h.move ht rfl nofun nofun nofun rfl rfl h.full
  | tickAt ht => exact h.move ht rfl nofun nofun nofun rfl rfl h.full
  | sendDMX ht _ => exact h.move ht rfl nofun nofun nofun rfl rfl h.full
  | startPanic _ _ =>
    refine h.idle ?_ ?_ ?_ ?_ <;> simp only [Sys.reset, Sys.panic, Sys.resetTables] <;> split <;>
      first | rfl | exact id | exact h.full
  | startFail _ _ =>
    refine h.idle ?_ ?_ ?_ ?_ <;> simp only [Sys.reset, Sys.resetTables] <;> split <;>
      first | rfl | exact id | exact h.full
  | start _ _ =>
    refine h.start ?_ ?_ ?_ <;> simp only [Sys.reset, Sys.makeChannels, Sys.resetTables] <;> split <;> rfl
  | listen hc =>
    refine h.spawn (by rfl) ?_ (fun _ hn => absurd hc hn) rfl (fun _ => nofun) rfl
    intro u hu
    simp only [Params.goroutines] at hu
    split at hu <;> simp at hu
    · rcases hu with rfl | rfl | rfl | rfl | rfl <;> nofun
    · rcases hu with rfl | rfl | rfl <;> nofun
  | listenFail _ => exact h.idle rfl rfl (fun _ => nofun) h.full
  | stop _ _ => exact h.idle rfl rfl (fun _ => nofun) h.full
  | close hc _ hg _ =>
    exact h.idle rfl rfl (fun _ => nofun) (h.set hg fun _ => Nat.le_refl _)
  | disconnectC _ _ => exact h.idle rfl rfl (fun _ => nofun) h.full
  | disconnect _ _ => exact h.idle rfl rfl (fun _ => nofun) h.full
  | ended _ _ _ => exact h.idle rfl rfl (fun _ => nofun) h.full
  | register _ _ => exact h.idle rfl rfl id h.full
  | deregister _ _ => exact h.idle rfl rfl id h.full
  | noRegister _ _ => exact h
  | spawnCaller _ => exact h.spawn (by rfl) (by simp) (by simp [isSl]) rfl id rfl

end Verif.Conc
