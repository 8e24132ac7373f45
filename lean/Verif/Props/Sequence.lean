import Verif.Lemmas.Sequence
import Verif.Lemmas.Rated
/-
Receivers that check sequence numbers: C140.
-/
namespace Verif.Props
open Spec Packet Code Artnet

/-- C140 as stated: at every frame rate that can be configured the data of a universe arrives in an order that a receiver
which looks at the sequence numbers accepts. -/
def C140_statement : Prop := ∀ m d, tickerPeriod m = .ok d → KeepsSequence m d

/-- C140 as far as it holds: for rates up to 163. -/
theorem C140_partial (m d : Int) (hd : tickerPeriod m = .ok d) (hm : m ≤ 163) : KeepsSequence m d := by
  intro pre mid o1 o2 t1 t2 a r e1 e2 hcan hsp he1 hf1 hmid hst he2 hf2
  have hrange := (C56_partial m).1.mp ⟨d, hd⟩
  have hdv := (C56_partial m).2 hrange
  rw [hd] at hdv
  have hdv : d = 1000000000 / m := by injection hdv
  have hd6 : 6134969 ≤ d := by
    rw [hdv, Int.le_ediv_iff_mul_le (by omega)]
    omega
  rw [canRun_append] at hcan
  obtain ⟨h0, h1, h2⟩ := hcan
  have hi0 := (inv_init m).run pre h0
  have hw0 := (few_init m).run (inv_init m) pre h0
  rw [tickTimes_append] at hsp
  have hsp := spaced_append_right hsp
  generalize ((Ctrl.init m).run pre).1 = c at *
  rw [canRun_append] at h2
  obtain ⟨h2, h3, _⟩ := h2
  have hi1 := hi0.step _ h1
  have hw1 := hw0.step hi0 _ h1
  have hi2 := hi1.run mid h2
  have hw2 := hw1.run hi1 mid h2
  have t := tick_spec hi0 (now := t1) h1
  have hr : c.output.get a = some r := by
    have := (t.each e1 he1).2.1
    rw [hf1.1, hf1.2] at this
    exact this
  have hmem : a ∈ o1 := h1.mem_iff.mpr ((GoMap.mem_keys_iff _ _).mpr ⟨_, hr⟩)
  have hlt : r < (c.step (.tick o1 t1)).1.next := by rw [t.next]; exact hi0.lt_next r (hi0.out a r hr).1
  have hdue : Due (bufferAt (c.heap r) a) t1 c.maxFPS := by
    have : a ∈ (c.step (.tick o1 t1)).2.map emAddress := List.mem_map.mpr ⟨e1, he1, hf1.2⟩
    rw [t.addresses] at this
    have := (List.mem_filter.mp this).2
    simp only [dueIn, hr] at this
    exact of_decide_eq_true this
  have hstamp : (bufferAt ((c.step (.tick o1 t1)).1.heap r) a).lastUpdate = t1 := by
    rw [bufferAt, t.buffer, if_pos ⟨hmem, hr⟩, ticked, if_pos hdue]; rfl
  obtain ⟨g1, g2⟩ := quiet_universe mid hi1 hw1 h2 hlt hstamp hst hmid
  -- the number of ticks in between
  have hk : (tickTimes mid).length ≤ 40 := by
    have hsp' : Spaced d (t1 :: tickTimes mid) := by
      have e : tickTimes (.tick o1 t1 :: (mid ++ [.tick o2 t2])) = (t1 :: tickTimes mid) ++ [t2] := by
        show t1 :: tickTimes (mid ++ _) = _
        rw [tickTimes_append]; rfl
      rw [e] at hsp
      exact spaced_append_left hsp
    obtain ⟨y, hy, hle⟩ := spaced_last _ _ hsp'
    have : y ≤ t1 + 250000000 := by
      rcases List.mem_cons.mp hy with rfl | hy
      · omega
      · exact g1 y hy
    apply Classical.byContradiction
    intro hk
    have : d * 41 ≤ d * ((tickTimes mid).length : Int) := Int.mul_le_mul_of_nonneg_left (by omega) (by omega)
    omega
  -- the datagrams made from the node object
  obtain ⟨n, _, hseq⟩ := run_sequence hi0 (.tick o1 t1 :: (mid ++ [.tick o2 t2])) ⟨h1, canRun_append _ _ _ |>.mpr ⟨h2, h3, trivial⟩⟩ r
  have hall : ((c.run (.tick o1 t1 :: (mid ++ [.tick o2 t2]))).2.filter (·.ref = r)) =
      (c.step (.tick o1 t1)).2.filter (·.ref = r) ++ (((c.step (.tick o1 t1)).1.run mid).2.filter (·.ref = r) ++
        (((c.step (.tick o1 t1)).1.run mid).1.step (.tick o2 t2)).2.filter (·.ref = r)) := by
    rw [(run_cons _ _ _).2, (run_append _ _ _).2, List.filter_append, List.filter_append]
    simp [Ctrl.run]
  rw [hall] at hseq
  have hm1 := (tick_at_most hi0 hw0 o1 t1 h1 r).1
  have hm2 := (tick_at_most hi2 hw2 o2 t2 h3 r).1
  obtain ⟨x1, y1, hx1⟩ := List.append_of_mem (List.mem_filter (p := (·.ref = r)) |>.mpr ⟨he1, decide_eq_true hf1.1⟩)
  obtain ⟨x2, y2, hx2⟩ := List.append_of_mem (List.mem_filter (p := (·.ref = r)) |>.mpr ⟨he2, decide_eq_true hf2.1⟩)
  rw [hx1] at hm1 hseq
  rw [hx2] at hm2 hseq
  generalize (((c.step (.tick o1 t1)).1.run mid).2.filter (·.ref = r)) = M at *
  simp only [List.length_append, List.length_cons] at hm1 hm2
  have s1 := seqFrom_at hseq (x := x1) (e := e1) (y := y1 ++ (M ++ (x2 ++ e2 :: y2))) (by simp)
  have s2 := seqFrom_at hseq (x := x1 ++ e1 :: y1 ++ M ++ x2) (e := e2) (y := y2) (by simp)
  refine .inr (.inr ?_)
  have hlen : (x1 ++ e1 :: y1 ++ M ++ x2).length + 1 = (x1.length + 1) + (y1.length + M.length + x2.length + 1) := by
    simp only [List.length_append, List.length_cons]; omega
  rw [hlen, ← ofNat_add8', ← s1] at s2
  have hdiff : (emSequence e2 - emSequence e1).toNat = y1.length + M.length + x2.length + 1 := by
    rw [s2, UInt8.add_comm, UInt8.add_sub_cancel, UInt8.toNat_ofNat']
    omega
  rw [hdiff]
  omega

/-- A reply from a node at `ip` with four output ports, switches `u`, in net 0. -/
def replyFour (ip : Arr 4) (u : Arr 4) : ArtPollReply :=
  { ArtPollReply.new with
    ipAddress := ip
    numPorts := 4
    portTypes := ⟨[0x80, 0x80, 0x80, 0x80], rfl⟩
    swOut := u }

/-- The universe with number `k`. -/
def uni (k : Nat) : Address := ⟨0, UInt8.ofNat k⟩

/-- A node with the universes 1 to 4; then ticks 6 ms apart, before each of which new data for 2, 3 and 4 is given. -/
def busy (n : Nat) : List Op :=
  (List.range' 1 n).flatMap fun k : Nat => [.send fullOn (uni 2), .send fullOn (uni 3), .send fullOn (uni 4),
    .tick [uni 2, uni 3, uni 4, uni 1] (1000000000 + 6000000 * k)]

def busyPre : List Op := [.reply (replyFour ipA ⟨[1, 2, 3, 4], rfl⟩) 0]

def busyMid : List Op := busy 41 ++ [.send fullOn (uni 2), .send fullOn (uni 3), .send fullOn (uni 4)]

/-- The same at 40 frames per second. -/
def busySlow : List Op :=
  ((List.range' 1 10).flatMap fun k : Nat => [.send fullOn (uni 2), .send fullOn (uni 3), .send fullOn (uni 4),
    .tick [uni 2, uni 3, uni 4, uni 1] (1000000000 + 25000000 * k)]) ++
  [.send fullOn (uni 2), .send fullOn (uni 3), .send fullOn (uni 4)]

/-- The first datagram of a list that is for universe `a` and made from `r`. -/
def firstFor (a : Address) (r : Ref) (es : List Emission) : Option Emission :=
  es.find? fun e => e.ref == r && emAddress e == a

theorem firstFor_some {a : Address} {r : Ref} {es : List Emission} {e : Emission} (h : firstFor a r es = some e) :
    e ∈ es ∧ IsFor a r e := by
  refine ⟨List.mem_of_find?_eq_some h, ?_⟩
  have := List.find?_some h
  simp only [Bool.and_eq_true, beq_iff_eq] at this
  exact this

theorem firstFor_none {a : Address} {r : Ref} {es : List Emission} (h : firstFor a r es = none) :
    ∀ e ∈ es, ¬ IsFor a r e := by
  intro e he hf
  have := List.find?_eq_none.mp h e he
  simp [hf.1, hf.2] at this

/-- The second datagram for universe `a` is not newer than the first, and there is none in between. -/
def outOfOrder (a : Address) (r : Ref) (first between second : List Emission) : Bool :=
  match firstFor a r first, firstFor a r between, firstFor a r second with
  | some e1, none, some e2 => !decide (Newer (emSequence e1) (emSequence e2))
  | _, _, _ => false

theorem not_keeps {m d : Int} (pre mid : List Op) (o1 o2 : List Address) (t1 t2 : Int) (a : Address) (r : Ref)
    (h : (Ctrl.init m).CanRun (pre ++ .tick o1 t1 :: (mid ++ [.tick o2 t2])))
    (hsp : Spaced d (tickTimes (pre ++ .tick o1 t1 :: (mid ++ [.tick o2 t2]))))
    (hst : StaysRouted a r (((Ctrl.init m).run pre).1.step (.tick o1 t1)).1 mid)
    (hb : outOfOrder a r (((Ctrl.init m).run pre).1.step (.tick o1 t1)).2
      ((((Ctrl.init m).run pre).1.step (.tick o1 t1)).1.run mid).2
      (((((Ctrl.init m).run pre).1.step (.tick o1 t1)).1.run mid).1.step (.tick o2 t2)).2 = true) : ¬ KeepsSequence m d := by
  intro hk
  unfold outOfOrder at hb
  split at hb
  · rename_i e1 e2 f1 f2 f3
    simp only [Bool.not_eq_true', decide_eq_false_iff_not] at hb
    exact hb (hk pre mid o1 o2 t1 t2 a r e1 e2 h hsp (firstFor_some f1).1 (firstFor_some f1).2 (firstFor_none f2) hst
      (firstFor_some f3).1 (firstFor_some f3).2)
  · cases hb

/-- At the default rate: universe 1 is sent at the first tick and as a keep-alive more than 250 ms later, 129 datagrams
for the other universes are sent in between. Sequence 1 is followed by 131. -/
theorem C140_false : ¬ C140_statement := by
  intro h
  refine not_keeps busyPre busyMid [uni 1, uni 2, uni 3, uni 4] [uni 2, uni 3, uni 4, uni 1] 1000000000 1252000000 (uni 1) 0
    (canRunB_iff _ _ (by decide +kernel)) ?_ (staysB_iff _ _ (by decide +kernel)) (by decide +kernel) (h 1000 1000000 rfl)
  exact spacedB_iff (by decide +kernel)

/-- A node that announces universe 1 and, before every tick, three others that are new. -/
def turning (i n : Nat) : List Op :=
  (List.range' i n).flatMap fun k : Nat => [.reply (replyFour ipA ⟨[1, UInt8.ofNat (3 * k + 2), UInt8.ofNat (3 * k + 3), UInt8.ofNat (3 * k + 4)], rfl⟩) 0,
    .tick [uni (3 * k + 2), uni (3 * k + 3), uni (3 * k + 4), uni 1] (1000000000 + 6097560 * k)]

def turnMid : List Op := turning 1 41 ++ [.reply (replyFour ipA ⟨[1, 128, 129, 130], rfl⟩) 0]

/-- C140, exactly: it holds for the rates up to 163. -/
theorem C140_exact (m d : Int) (hd : tickerPeriod m = .ok d) : KeepsSequence m d ↔ m ≤ 163 := by
  refine ⟨fun h => ?_, C140_partial m d hd⟩
  apply Classical.byContradiction
  intro hm
  have hrange := (C56_partial m).1.mp ⟨d, hd⟩
  have hdv := (C56_partial m).2 hrange
  rw [hd] at hdv
  have hdv : d = 1000000000 / m := by injection hdv
  have hd6 : d ≤ 6097560 := by
    have : d < 6097561 := by
      rw [hdv, Int.ediv_lt_iff_lt_mul (by omega)]
      omega
    omega
  have hplain : ∀ o ∈ busyPre ++ .tick [uni 1, uni 2, uni 3, uni 4] 1000000000 ::
      (turnMid ++ [.tick [uni 128, uni 129, uni 130, uni 1] 1256097520]), Plain o := by
    intro o ho
    cases o with
    | reply _ _ => trivial
    | tick _ _ => trivial
    | _ => simp [busyPre, turnMid, turning] at ho
  have hcan : (Ctrl.init 0).CanRun (busyPre ++ .tick [uni 1, uni 2, uni 3, uni 4] 1000000000 ::
      (turnMid ++ [.tick [uni 128, uni 129, uni 130, uni 1] 1256097520])) := canRunB_iff _ _ (by decide +kernel)
  obtain ⟨_, r1, _, _⟩ := rated_run m _ (inv_init 0) (calm_init 0) hplain hcan
  rw [canRun_append] at hcan
  obtain ⟨c0, c1, c2⟩ := hcan
  rw [canRun_append] at c2
  obtain ⟨c2, c3, _⟩ := c2
  obtain ⟨p0, _, k0, _⟩ := rated_run m _ (inv_init 0) (calm_init 0) (fun o ho => hplain o (by simp [ho])) c0
  have i0 := (inv_init 0).run _ c0
  obtain ⟨p1, k1⟩ := rated_step i0 k0 m (.tick [uni 1, uni 2, uni 3, uni 4] 1000000000) trivial c1
  have i1 := i0.step _ c1
  obtain ⟨p2, _, k2, s2⟩ := rated_run m turnMid i1 k1 (fun o ho => hplain o (by simp [ho])) c2
  have i2 := i1.run _ c2
  obtain ⟨p3, k3⟩ := rated_step i2 k2 m (.tick [uni 128, uni 129, uni 130, uni 1] 1256097520) trivial c3
  have e0 : (Ctrl.init 0).rated m = Ctrl.init m := rfl
  rw [e0] at p0 r1
  refine not_keeps busyPre turnMid [uni 1, uni 2, uni 3, uni 4] [uni 128, uni 129, uni 130, uni 1] 1000000000 1256097520
    (uni 1) 0 r1 ?_ ?_ ?_ h
  · refine spaced_le hd6 ?_
    exact spacedB_iff (by decide +kernel)
  · rw [p0, p1]
    exact s2 _ _ (staysB_iff _ _ (by decide +kernel))
  · rw [p0, p1, p2, p3]
    dsimp only
    decide +kernel

/-- 163 and 164 frames per second can be configured. -/
example : tickerPeriod 163 = .ok 6134969 ∧ tickerPeriod 164 = .ok 6097560 ∧ KeepsSequence 163 6134969 ∧
    ¬ KeepsSequence 164 6097560 :=
  ⟨rfl, rfl, C140_partial 163 _ rfl (by decide), fun h => absurd ((C140_exact 164 _ rfl).mp h) (by decide)⟩

/-- The hypotheses of `KeepsSequence` at 40 frames per second: the keep-alive of universe 1 after ten ticks with data for
the other universes. -/
example : (Ctrl.init 40).CanRun (busyPre ++ .tick [uni 1, uni 2, uni 3, uni 4] 1000000000 ::
      (busySlow ++ [.tick [uni 2, uni 3, uni 4, uni 1] 1275000000])) ∧
    Spaced 25000000 (tickTimes (busyPre ++ .tick [uni 1, uni 2, uni 3, uni 4] 1000000000 ::
      (busySlow ++ [.tick [uni 2, uni 3, uni 4, uni 1] 1275000000]))) ∧
    StaysRouted (uni 1) 0 (((Ctrl.init 40).run busyPre).1.step (.tick [uni 1, uni 2, uni 3, uni 4] 1000000000)).1 busySlow ∧
    (firstFor (uni 1) 0 (((((Ctrl.init 40).run busyPre).1.step (.tick [uni 1, uni 2, uni 3, uni 4] 1000000000)).1.run
      busySlow).1.step (.tick [uni 2, uni 3, uni 4, uni 1] 1275000000)).2).map emSequence = some 38 :=
  ⟨canRunB_iff _ _ (by decide +kernel), spacedB_iff (by decide +kernel), staysB_iff _ _ (by decide +kernel), by decide +kernel⟩

/-- A node that is sent two datagrams, then is silent for eight seconds and answers again. -/
def silent : List Op := [.reply (replyOf ipA 1) 0, .tick [uni 1] 1000000000, .tick [uni 1] 1251000000,
  .gc (fun _ => 8000000000), .reply (replyOf ipA 1) 8100000000, .tick [uni 1] 8200000000]

/-- A node that was forgotten and is found again is numbered from 1 again: of two datagrams in a row, to the same address
and for the same universe, the second is not newer for the receiver. -/
theorem C140_forgotten : ∃ (os : List Op) (pre post : List Emission) (e1 e2 : Emission), (Ctrl.init 40).CanRun os ∧
    Spaced 25000000 (tickTimes os) ∧ ((Ctrl.init 40).run os).2 = pre ++ e1 :: e2 :: post ∧ e1.address = e2.address ∧
    emAddress e1 = emAddress e2 ∧ ¬ Newer (emSequence e1) (emSequence e2) := by
  have h : (match ((Ctrl.init 40).run silent).2 with
    | [_, e1, e2] => e1.address == e2.address && emAddress e1 == emAddress e2 && !decide (Newer (emSequence e1) (emSequence e2))
    | _ => false) = true := by decide +kernel
  refine ⟨silent, ?_⟩
  split at h
  · rename_i e0 e1 e2 he
    simp only [Bool.and_eq_true, beq_iff_eq, Bool.not_eq_true', decide_eq_false_iff_not] at h
    exact ⟨[e0], [], e1, e2, canRunB_iff _ _ (by decide +kernel), spacedB_iff (by decide +kernel), he, h.1.1, h.1.2, h.2⟩
  · cases h

end Verif.Props
