import Verif.Lemmas.Clock
import Verif.Props.LastCall
/-
The controller and the clocks of the operating system: C156.
-/
namespace Verif.Props
open Spec Packet Code Artnet Clock

/-- C156 as stated: setting the wall clock of the host changes nothing in what a controller sends. -/
def C156_statement : Prop := ∀ m d : Int, tickerPeriod m = .ok d → ∀ es es' : List Event, SameMoments es es' → EveryReading Runs es →
  ((State.init m).run es).2 = ((State.init m).run es').2

/-- A node announces itself when the wall clock shows `w`; two ticks follow, one and two seconds later, the second after the wall
clock has been set so that it shows `w'`. -/
def clockSet (w w' : Int) : List Event :=
  [.reply (replyOf ipA 1) ⟨w, second⟩, .tick [uni 1] ⟨w + second, 2 * second⟩, .tick [uni 1] ⟨w', 3 * second⟩]

/-- In the year 2219 the wall clock is set back by an hour: the light datagrams of that hour are missing. -/
theorem C156_false : ¬ C156_statement := by
  intro h
  have hx := h 40 25000000 rfl (clockSet (70000000000 * second) (70000000002 * second))
    (clockSet (70000000000 * second) (69999996402 * second))
    (by simp [clockSet, SameMoments]) (by simp only [clockSet, EveryReading, Runs]; decide)
  have hn := congrArg List.length hx
  revert hn
  decide +kernel

/-- C156, what holds: nothing changes as long as the wall clock shows a moment between 1885 and 2157, before and after it is set. -/
theorem C156_partial (m d : Int) (hd : tickerPeriod m = .ok d) (es es' : List Event) (hs : SameMoments es es')
    (hr : EveryReading Runs es) (hc : EveryReading Contemporary es) (hc' : EveryReading Contemporary es') :
    ((State.init m).run es).2 = ((State.init m).run es').2 ∧
    ((State.init m).run es).1.nodes = ((State.init m).run es').1.nodes ∧
    ((State.init m).run es).1.output = ((State.init m).run es').1.output ∧
    ((State.init m).run es).1.input = ((State.init m).run es').1.input := by
  have hm := period_range hd
  have hK : staleAfter < 8000000000 := by decide
  have F := contemporary_faithful hK
  have hf : 0 ≤ (State.init m).maxFPS ∧ (State.init m).maxFPS ≤ second := ⟨Int.le_of_lt hm.1, hm.2⟩
  obtain ⟨a1, a2⟩ := run_clock F es (timely_init F m) hf (every_and hr hc)
  obtain ⟨b1, b2⟩ := run_clock F es' (timely_init F m) hf (every_and (runs_same hs hr) hc')
  rw [readAs_same _ hs, ← b1] at a1
  rw [readAs_same _ hs, ← b2] at a2
  exact ⟨a2, congrArg Ctrl.nodes a1, congrArg Ctrl.output a1, congrArg Ctrl.input a1⟩

/-- The clock is set from 2024 to 1970 between the two ticks. -/
example : SameMoments (clockSet (63870000000 * second) (63870000002 * second)) (clockSet (63870000000 * second) (62135596800 * second)) ∧
    EveryReading Runs (clockSet (63870000000 * second) (63870000002 * second)) ∧
    EveryReading Contemporary (clockSet (63870000000 * second) (63870000002 * second)) ∧
    EveryReading Contemporary (clockSet (63870000000 * second) (62135596800 * second)) ∧ tickerPeriod 40 = .ok 25000000 ∧
    ((State.init 40).run (clockSet (63870000000 * second) (62135596800 * second))).2.length = 2 :=
  ⟨by simp [clockSet, SameMoments], by simp only [clockSet, EveryReading, Runs]; decide,
    by simp only [clockSet, EveryReading, Contemporary]; decide, by simp only [clockSet, EveryReading, Contemporary]; decide, rfl,
    by decide +kernel⟩

/-- Model/Controller.lean, with one number for a time, is then exact: the numbers are the monotonic readings, counted from any
moment more than seven seconds before the start of the process. The payloads are the same, and so is the state, with every time
replaced by its number. -/
theorem C156_model (m d K : Int) (hd : tickerPeriod m = .ok d) (hK : 7000000000 < K) (es : List Event) (hr : EveryReading Runs es)
    (hc : EveryReading Contemporary es) :
    ((State.init m).run es).2 = ((Ctrl.init m).run (es.map (readAs (since K)))).2 ∧
    ctrlOf (stamp K) ((State.init m).run es).1 = ((Ctrl.init m).run (es.map (readAs (since K)))).1 := by
  have hm := period_range hd
  have F := contemporary_faithful (K := K) hK
  obtain ⟨a1, a2⟩ := run_clock F es (timely_init F m) ⟨Int.le_of_lt hm.1, hm.2⟩ (every_and hr hc)
  exact ⟨a2, a1⟩

/-- Whatever the wall clock shows (more than seven seconds after the beginning of the year 1): if it is never set, the model is
exact too. -/
theorem C156_steady (m d K W : Int) (hd : tickerPeriod m = .ok d) (hK : 7000000000 < K) (hW : 7000000000 < W) (es : List Event)
    (hr : EveryReading Runs es) (hw : EveryReading (fun r => r.wall = r.mono + W) es) :
    ((State.init m).run es).2 = ((Ctrl.init m).run (es.map (readAs (since K)))).2 ∧
    ((State.init m).run es).1.nodes = ((Ctrl.init m).run (es.map (readAs (since K)))).1.nodes ∧
    ((State.init m).run es).1.output = ((Ctrl.init m).run (es.map (readAs (since K)))).1.output ∧
    ((State.init m).run es).1.input = ((Ctrl.init m).run (es.map (readAs (since K)))).1.input := by
  have hm := period_range hd
  have F := steady_faithful (K := K) (W := W) hK hW
  obtain ⟨a1, a2⟩ := run_clock F es (timely_init F m) ⟨Int.le_of_lt hm.1, hm.2⟩ (every_and hr hw)
  exact ⟨a2, congrArg Ctrl.nodes a1, congrArg Ctrl.output a1, congrArg Ctrl.input a1⟩

/-- In the year 2219, with a clock that is not set. -/
example : EveryReading Runs (clockSet (70000000000 * second) (70000000002 * second)) ∧
    EveryReading (fun r => r.wall = r.mono + 69999999999 * second) (clockSet (70000000000 * second) (70000000002 * second)) ∧
    ((State.init 40).run (clockSet (70000000000 * second) (70000000002 * second))).2.length = 2 := by
  refine ⟨by simp only [clockSet, EveryReading, Runs]; decide, by simp only [clockSet, EveryReading]; decide, by decide +kernel⟩

/-- What a controller sends does not depend on the moment from which Model/Controller.lean counts the time. -/
theorem C156_epoch (m d K K' : Int) (hd : tickerPeriod m = .ok d) (hK : 7000000000 < K) (hK' : 7000000000 < K') (es : List Event)
    (hr : EveryReading Runs es) (hc : EveryReading Contemporary es) :
    ((Ctrl.init m).run (es.map (readAs (since K)))).2 = ((Ctrl.init m).run (es.map (readAs (since K')))).2 :=
  (C156_model m d K hd hK es hr hc).1.symm.trans (C156_model m d K' hd hK' es hr hc).1

/-- The arithmetic with the frame rate does not overflow: with 64-bit integers the set-up of dmxUpdateLoop ends as it does with
unbounded ones, and where it does not panic the interval `-fpsInterval` is exact. -/
theorem C156_rate (m : Int64) :
    (match tickerPeriod64 m with | .ok d => .ok d.toInt | .error e => .error e) = tickerPeriod m.toInt ∧
    (∀ d, tickerPeriod64 m = .ok d → (-m).toInt = -m.toInt) := by
  have h0 : m = 0 ↔ m.toInt = 0 := by
    rw [← Int64.toInt_inj]; exact Iff.rfl
  have hd : ((1000000000 : Int64) / m).toInt = Int.tdiv 1000000000 m.toInt :=
    Int64.toInt_div_of_ne_left _ _ (by decide)
  have hle : ((1000000000 : Int64) / m ≤ 0) ↔ Int.tdiv 1000000000 m.toInt ≤ 0 := by
    rw [Int64.le_iff_toInt_le, hd]; exact Iff.rfl
  have heq : (match tickerPeriod64 m with | .ok d => .ok d.toInt | .error e => .error e) = tickerPeriod m.toInt := by
    unfold tickerPeriod64 tickerPeriod
    by_cases hm : m = 0
    · rw [if_pos hm, if_pos (h0.mp hm)]
    · rw [if_neg hm, if_neg (fun h => hm (h0.mpr h))]
      dsimp only
      unfold second
      by_cases hx : (1000000000 : Int64) / m ≤ 0
      · rw [if_pos hx, if_pos (hle.mp hx)]
      · rw [if_neg hx, if_neg (fun h => hx (hle.mpr h))]
        dsimp only
        rw [hd]
  refine ⟨heq, fun d h => ?_⟩
  rw [h] at heq
  obtain ⟨h1, h2⟩ := period_range heq.symm
  rw [Int64.toInt_neg]
  unfold second at h2
  exact Int.bmod_eq_of_le (by omega) (by omega)

example : (match tickerPeriod64 40 with | .ok d => d == 25000000 | .error _ => false) = true ∧
    (match tickerPeriod64 (-9223372036854775808) with | .ok _ => false | .error e => e == .nonPositiveTicker) = true := by decide +kernel

end Verif.Props
