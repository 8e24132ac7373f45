import Verif.Props.Stream
import Verif.Lemmas.Stamp
/-
The rate of updates: C79, C82.
-/
namespace Verif.Props
open Spec Packet Artnet

/-! ### C79 -/

/-- The datagrams for universe `a` that a history sends from state `c`. -/
def sentFor (c : Ctrl) (os : List Op) (a : Address) : List Emission := (c.run os).2.filter (emAddress · = a)

/-- C79 as stated: with ticks that are at least the period of the ticker apart, at most `maxFPS` datagrams
are sent for a universe within one second. -/
def C79_statement : Prop := ∀ (m d t : Int) (pre os : List Op) (a : Address), tickerPeriod m = .ok d →
  (Ctrl.init m).CanRun (pre ++ os) → Spaced d (tickTimes (pre ++ os)) → WithinSecond t (tickTimes os) →
  (sentFor ((Ctrl.init m).run pre).1 os a).length ≤ m

/-- Four ticks within a second at three frames per second: the period is rounded down. -/
def fourTicks : List Op := [.tick [⟨0, 1⟩] 1000000000, .tick [⟨0, 1⟩] 1333333333, .tick [⟨0, 1⟩] 1666666666,
  .tick [⟨0, 1⟩] 1999999999]

theorem C79_false : ¬ C79_statement := by
  intro h
  have h1 : (Ctrl.init 3).CanRun ([.reply (replyOf ipA 1) 0] ++ fourTicks) :=
    ⟨trivial, List.isPerm_iff.mp (by decide +kernel), List.isPerm_iff.mp (by decide +kernel),
      List.isPerm_iff.mp (by decide +kernel), List.isPerm_iff.mp (by decide +kernel), trivial⟩
  have := h 3 333333333 1000000000 [.reply (replyOf ipA 1) 0] fourTicks ⟨0, 1⟩ rfl h1
    (by simp [tickTimes, fourTicks, Spaced]) (by simp [tickTimes, fourTicks, WithinSecond])
  have h4 : (sentFor ((Ctrl.init 3).run [.reply (replyOf ipA 1) 0]).1 fourTicks ⟨0, 1⟩).length = 4 := by
    decide +kernel
  rw [h4] at this
  exact absurd this (by decide)

theorem spaced_append_right {d : Int} {l l' : List Int} (h : Spaced d (l ++ l')) : Spaced d l' := by
  induction l with
  | nil => exact h
  | cons x l ih =>
    apply ih
    cases hl : l ++ l' with
    | nil => trivial
    | cons y k =>
      rw [List.cons_append, hl] at h
      exact h.2

/-- The last of `n + 1` spaced times is at least `n` periods after the first. -/
theorem spaced_last {d : Int} (l : List Int) (x : Int) (h : Spaced d (x :: l)) :
    ∃ y ∈ x :: l, x + d * l.length ≤ y := by
  induction l generalizing x with
  | nil => exact ⟨x, by simp, by simp⟩
  | cons z l ih =>
    obtain ⟨y, hy, hle⟩ := ih z h.2
    refine ⟨y, List.mem_cons_of_mem _ hy, ?_⟩
    have := h.1
    rw [List.length_cons, Int.natCast_add, Int.mul_add]
    simp only [Int.natCast_one, Int.mul_one]
    omega

/-- At most one datagram per tick and universe. -/
theorem sent_le_ticks {c : Ctrl} (hi : Inv c) (os : List Op) (h : c.CanRun os) (a : Address) :
    (sentFor c os a).length ≤ (tickTimes os).length := by
  induction os generalizing c with
  | nil => simp [sentFor, Ctrl.run]
  | cons o os ih =>
    have i := ih (hi.step o h.1) h.2
    unfold sentFor at i ⊢
    rw [(run_cons c o os).2, List.filter_append, List.length_append]
    have quiet : (c.step o).2 = [] → (tickTimes os).length ≤ (tickTimes (o :: os)).length →
        ((c.step o).2.filter (emAddress · = a)).length +
          (((c.step o).1.run os).2.filter (emAddress · = a)).length ≤ (tickTimes (o :: os)).length := by
      intro h0 h1
      rw [h0]
      simp only [List.filter_nil, List.length_nil]
      omega
    cases o with
    | tick order now =>
      have := (C47_one_packet_per_universe c hi.wfOut order h.1 now).2.1 a
      show ((c.tickOver order now).2.filter _).length + _ ≤ (tickTimes os).length + 1
      exact Nat.le_trans (Nat.add_le_add this i) (by omega)
    | _ => exact quiet rfl (Nat.le_refl _)

/-- The number of datagrams for a universe in one second, for every rate: one less than the number of
datagrams, times the period, is less than a second. -/
theorem C79_bound (m d t : Int) (pre os : List Op) (a : Address) (hd : tickerPeriod m = .ok d)
    (h : (Ctrl.init m).CanRun (pre ++ os)) (hs : Spaced d (tickTimes (pre ++ os)))
    (hw : WithinSecond t (tickTimes os)) :
    ((sentFor ((Ctrl.init m).run pre).1 os a).length - 1 : Int) * d < 1000000000 := by
  have hrange := (C56_partial m).1.mp ⟨d, hd⟩
  have hdv := (C56_partial m).2 hrange
  rw [hd] at hdv
  have hdv : d = 1000000000 / m := by injection hdv
  have hpos : 1 ≤ d := by
    rw [hdv, Int.le_ediv_iff_mul_le (by omega)]
    omega
  rw [canRun_append] at h
  have hle := sent_le_ticks ((inv_init m).run pre h.1) os h.2 a
  rw [tickTimes_append] at hs
  have hs := spaced_append_right hs
  cases hl : tickTimes os with
  | nil =>
    rw [hl] at hle
    have : (sentFor ((Ctrl.init m).run pre).1 os a).length = 0 := Nat.le_zero.mp hle
    rw [this]
    simp only [Int.natCast_zero]
    omega
  | cons x l =>
    rw [hl] at hs hw hle
    obtain ⟨y, hy, hxy⟩ := spaced_last l x hs
    have h1 := hw x List.mem_cons_self
    have h2 := hw y hy
    have h3 : ((sentFor ((Ctrl.init m).run pre).1 os a).length : Int) - 1 ≤ l.length := by
      rw [List.length_cons] at hle
      omega
    have h4 := Int.mul_le_mul_of_nonneg_right h3 (by omega : 0 ≤ d)
    rw [Int.mul_comm (l.length : Int)] at h4
    omega

/-- C79 as far as it holds: the statement is true for every rate that divides 10⁹ (the nanoseconds of a
second), such as 1, 25, 40, 50 or 1000. -/
theorem C79_partial (m d t : Int) (pre os : List Op) (a : Address) (hd : tickerPeriod m = .ok d) (hdiv : m ∣ 1000000000)
    (h : (Ctrl.init m).CanRun (pre ++ os)) (hs : Spaced d (tickTimes (pre ++ os)))
    (hw : WithinSecond t (tickTimes os)) : (sentFor ((Ctrl.init m).run pre).1 os a).length ≤ m := by
  have hb := C79_bound m d t pre os a hd h hs hw
  have hrange := (C56_partial m).1.mp ⟨d, hd⟩
  have hdv := (C56_partial m).2 hrange
  rw [hd] at hdv
  have hdv : d = 1000000000 / m := by injection hdv
  have hmd : m * d = 1000000000 := by rw [hdv]; exact Int.mul_ediv_cancel' hdiv
  have hpos : 0 < d := by
    have : 0 < 1000000000 / m := Int.ediv_pos_of_pos_of_dvd (by decide) (by omega) hdiv
    omega
  rw [← hmd] at hb
  have := Int.lt_of_mul_lt_mul_right hb (by omega)
  omega

/-- At 40 frames per second: two ticks, 25 ms apart, with new data in between. -/
example : tickerPeriod 40 = .ok 25000000 ∧ (40 : Int) ∣ 1000000000 ∧
    (Ctrl.init 40).CanRun [.reply (replyOf ipA 1) 0, .tick [⟨0, 1⟩] 1000000000, .send fullOn ⟨0, 1⟩,
      .tick [⟨0, 1⟩] 1025000000] ∧
    (sentFor (Ctrl.init 40) [.reply (replyOf ipA 1) 0, .tick [⟨0, 1⟩] 1000000000, .send fullOn ⟨0, 1⟩,
      .tick [⟨0, 1⟩] 1025000000] ⟨0, 1⟩).length = 2 := by
  refine ⟨rfl, by decide, ⟨trivial, List.isPerm_iff.mp (by decide +kernel), trivial,
    List.isPerm_iff.mp (by decide +kernel), trivial⟩, by decide +kernel⟩

/-! ### C82 -/

/-- A buffer that was sent after `t1` was sent in a datagram of the history. -/
theorem sent_since {t1 : Int} (hz : 0 ≤ t1) (os : List Op) : ∀ {c : Ctrl}, Inv c → c.CanRun os →
    ∀ {E : Address → Prop}, (∀ r a b, (c.heap r).dmxBuffer.get a = some b → b.lastUpdate ≤ t1 ∨ E a) →
    ∀ r a b, ((c.run os).1.heap r).dmxBuffer.get a = some b → b.lastUpdate ≤ t1 ∨ E a ∨ sentFor c os a ≠ [] := by
  induction os with
  | nil => intro c _ _ E h r a b hb; exact (h r a b hb).imp id .inl
  | cons o os ih =>
    intro c hi h E hE r a b hb
    have h1 := since_step hi h.1 hz (E' := fun a => E a ∨ ∃ e ∈ (c.step o).2, emAddress e = a) (fun _ => .inl)
      (fun e he => .inr ⟨e, he, rfl⟩) hE
    have hsent : sentFor c (o :: os) a =
        (c.step o).2.filter (emAddress · = a) ++ sentFor (c.step o).1 os a := by
      rw [sentFor, (run_cons c o os).2, List.filter_append]; rfl
    rcases ih (hi.step o h.1) h.2 h1 r a b hb with h2 | (h2 | ⟨e, he, hea⟩) | h2
    · exact .inl h2
    · exact .inr (.inl h2)
    · refine .inr (.inr ?_)
      rw [hsent]
      intro h0
      have := (List.append_eq_nil_iff.mp h0).1
      rw [List.filter_eq_nil_iff] at this
      exact this e he (by simpa using hea)
    · refine .inr (.inr ?_)
      rw [hsent]
      exact fun h0 => h2 (List.append_eq_nil_iff.mp h0).2

/-- C82: keep-alive. If all earlier ticks were at or before `t1`, and a tick more than 250 ms after `t1` finds the
universe routed, then a datagram for it has been sent since: at that tick or at one in between. -/
theorem C82_keep_alive_interval (m : Int) (pre mid : List Op) (a : Address) (r : Ref) (order : List Address)
    (t1 t2 : Int) (h : (Ctrl.init m).CanRun (pre ++ mid ++ [.tick order t2]))
    (hpre : ∀ t ∈ tickTimes pre, t ≤ t1) (hz : 0 ≤ t1) (hgap : t1 + 250000000 < t2)
    (hr : Routed ((Ctrl.init m).run (pre ++ mid)).1 a r) :
    sentFor ((Ctrl.init m).run pre).1 (mid ++ [.tick order t2]) a ≠ [] := by
  rw [List.append_assoc, canRun_append, canRun_append] at h
  obtain ⟨h1, h2, h3, _⟩ := h
  have hi1 := (inv_init m).run pre h1
  have hst := stamped_init m pre h1
  rw [(run_append _ _ _).1] at hr
  generalize ((Ctrl.init m).run pre).1 = c at *
  have hs := sent_since hz mid hi1 h2 (E := fun _ => False) (fun r a b hb => by
    rcases hst r a b hb with h | h
    · left; omega
    · exact .inl (hpre _ h))
  have hi2 := hi1.run mid h2
  have hsplit : sentFor c (mid ++ [.tick order t2]) a =
      sentFor c mid a ++ ((c.run mid).1.tickOver order t2).2.filter (emAddress · = a) := by
    rw [sentFor, (run_append _ _ _).2, List.filter_append]
    congr 1
    simp [Ctrl.run, Ctrl.step]
  rw [hsplit]
  intro h0
  obtain ⟨h4, h5⟩ := List.append_eq_nil_iff.mp h0
  have hold : (bufferAt ((c.run mid).1.heap r) a).lastUpdate ≤ t1 := by
    rw [bufferAt]
    cases hg : ((c.run mid).1.heap r).dmxBuffer.get a with
    | none => exact hz
    | some b =>
      rcases hs r a b hg with h | h | h
      · exact h
      · exact h.elim
      · exact absurd h4 h
  obtain ⟨e, he, _, hea, _⟩ := (C49_keep_alive (c.run mid).1 hi2.wfOut order h3 t2 a r hr).1 (by omega)
  rw [List.filter_eq_nil_iff] at h5
  exact h5 e he (by simpa using hea)

/-- A node with one universe, a tick after one second, and one 251 ms later. -/
example : (Ctrl.init 40).CanRun ([.reply (replyOf ipA 1) 0, .tick [⟨0, 1⟩] 1000000000] ++ [] ++
      [.tick [⟨0, 1⟩] 1251000000]) ∧
    Routed ((Ctrl.init 40).run ([.reply (replyOf ipA 1) 0, .tick [⟨0, 1⟩] 1000000000] ++ [])).1 ⟨0, 1⟩ 0 :=
  ⟨⟨trivial, List.isPerm_iff.mp (by decide +kernel), List.isPerm_iff.mp (by decide +kernel), trivial⟩,
    by unfold Routed; decide +kernel⟩

end Verif.Props
