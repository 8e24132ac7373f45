import Verif.Lemmas.Traffic
import Verif.Spec.Tickers
/-
The number of ArtDMX for a universe.
-/
namespace Verif.Conc
open Packet Code Artnet Spec

theorem not_dmx_for (a : Address) {p : Payload} (h : isDmx p = false) : isDmxFor a p = false := by
  simp [isDmxFor, h]

def wDmxFor (a : Address) (c : Chans) : Nat := c.enq.countP (isDmxFor a)

/-- Every emission for a universe is one ArtDMX for it in a queue. -/
theorem dmx_for_conservation {P : Params} (a : Address) {s : Sys} (h : Reach P s) :
    total (wDmxFor a) s.chans = s.emitted.countP (emAddress · = a) := by
  refine Reach.induct (P := P) (I := fun s => total (wDmxFor a) s.chans = s.emitted.countP (emAddress · = a)) ?_ ?_ h
  · rfl
  intro s s' hr ih _ hst
  cases hst with
  | pushSend ht hk hg hl =>
    have h2 := total_ge (wDmxFor a) hg
    simp only [Sys.goto, Sys.setCh, total_sub _ hg]
    cases hk with
    | pr =>
      have hm := not_dmx_for a (me_not (threads_ok hr _ (List.mem_of_getElem? ht)).1 P.broadcast).2
      simp [wDmxFor, List.countP_append, hm] at *
      omega
    | pl =>
      have hm := not_dmx_for a (poll_not_dmx P.ctrlBroadcast)
      simp [wDmxFor, List.countP_append, hm] at *
      omega
  | @pushDmx _ _ e _ _ _ _ ht hg hq =>
    have hb := (emitted_dmx hr).1 _ (List.mem_of_getElem? ht)
    have hm : isDmxFor a ⟨e.address, e.data⟩ = decide (emAddress e = a) := by
      simp only [isDmxFor, dmx_is_dmx hb.1 e.address, Bool.true_and, emAddress]
      cases a with
      | mk n u => simp [Address.mk.injEq, Bool.beq_eq_decide_eq]
    have h2 := total_ge (wDmxFor a) hg
    simp only [Sys.goto, Sys.setCh, total_sub _ hg]
    simp [wDmxFor, List.countP_append, hm] at *
    omega
  | popPoll ht hg hq | popSend ht hg hq | popRecv ht hg hq | popReply ht hg hq
  | pushRecv ht hg hq | pushPoll ht hg hq | pushOwn ht hg hq | pushReply ht hg hq =>
    simp only [Sys.goto, Sys.setCh]
    rw [total_same (wDmxFor a) hg (by rfl)]
    exact ih
  | close hc h hg hd =>
    simp only [Sys.setCh]
    rw [total_same (wDmxFor a) hg (by rfl)]
    exact ih
  | startPanic | startFail =>
    simp only [Sys.reset, Sys.panic, Sys.resetTables]
    split <;> exact ih
  | start =>
    simp only [Sys.reset, Sys.makeChannels, Sys.resetTables]
    split <;> simpa [wDmxFor, Chans.make] using ih
  | _ => exact ih

end Verif.Conc
