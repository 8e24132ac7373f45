import Verif.Props.Rate
/-
The rates for which the limit of C79 holds: C79.
-/
namespace Verif.Props
open Spec Packet Artnet

/-- The IP address with number `k`. -/
def ipNo (k : Nat) : Arr 4 :=
  ⟨[UInt8.ofNat (k / 16777216), UInt8.ofNat (k / 65536), UInt8.ofNat (k / 256), UInt8.ofNat k], rfl⟩

theorem ipNo_inj {j k : Nat} (hj : j < 4294967296) (hk : k < 4294967296) (h : (ipNo j).val = (ipNo k).val) : j = k := by
  simp only [ipNo, List.cons.injEq, and_true] at h
  obtain ⟨h1, h2, h3, h4⟩ := h
  have e (a b : Nat) (h : UInt8.ofNat a = UInt8.ofNat b) : a % 256 = b % 256 := by
    have := congrArg UInt8.toNat h
    simpa using this
  have := e _ _ h1
  have := e _ _ h2
  have := e _ _ h3
  have := e _ _ h4
  omega

/-- From number `k` on, `n` nodes announce the same universe one after the other, each followed by a tick. -/
def wander (d : Int) : Nat → Nat → List Op
  | _, 0 => []
  | k, n + 1 => .reply (replyOf (ipNo k) 1) 0 :: .tick [⟨0, 1⟩] (1000000000 + k * d) :: wander d (k + 1) n

theorem wander_sends {d : Int} (hd : 0 ≤ d) (n : Nat) : ∀ (k : Nat) {c : Ctrl}, Artnet.Inv c → k + n ≤ 4294967296 →
    (∀ r ∈ c.nodes, ∃ j, j < k ∧ ipOf c r = (ipNo j).val) → (∀ x, c.output.get x ≠ none → x = ⟨0, 1⟩) →
    c.CanRun (wander d k n) ∧ n ≤ (sentFor c (wander d k n) ⟨0, 1⟩).length := by
  induction n with
  | zero => intro k c _ _ _ _; exact ⟨trivial, Nat.zero_le _⟩
  | succ n ih =>
    intro k c hi hk hn ho
    have hnone : known c (configFromArtPollReply (replyOf (ipNo k) 1)).ip = none := by
      cases hkn : known c (configFromArtPollReply (replyOf (ipNo k) 1)).ip with
      | none => rfl
      | some r =>
        obtain ⟨hr, hip⟩ := known_some hkn
        obtain ⟨j, hj, hje⟩ := hn r hr
        rw [config_ip] at hip
        have := ipNo_inj (by omega) (by omega) (hje.symm.trans hip)
        omega
    have e1 : c.pollReply (replyOf (ipNo k) 1) 0 =
        addedNode c (configFromArtPollReply (replyOf (ipNo k) 1)) 0 := by
      rw [pollReply_eq, if_pos (replyOf_tracked (ipNo k) 1), updateNode_eq, hnone]
    generalize hc1 : c.pollReply (replyOf (ipNo k) 1) 0 = c1 at e1
    have hi1 : Artnet.Inv c1 := by rw [← hc1]; exact hi.step (.reply (replyOf (ipNo k) 1) 0) trivial
    have hout : ∀ x, c1.output.get x = if x = ⟨0, 1⟩ then some c.next else c.output.get x := by
      intro x
      rw [e1]
      show (setAll _ _ _).get x = _
      rw [setAll_get, replyOf_outputs]
      simp only [List.mem_cons, List.not_mem_nil, or_false]
    have hr : Routed c1 ⟨0, 1⟩ c.next := by rw [Routed, hout, if_pos rfl]
    have hout' : ∀ x, c1.output.get x ≠ none → x = ⟨0, 1⟩ := by
      intro x hx
      rw [hout] at hx
      split at hx
      · assumption
      · exact ho x hx
    have hperm : [(⟨0, 1⟩ : Address)].Perm c1.output.keys := by
      refine (List.perm_ext_iff_of_nodup (by simp) hi1.wfOut).mpr fun x => ?_
      rw [GoMap.mem_keys_iff]
      constructor
      · intro h
        simp only [List.mem_cons, List.not_mem_nil, or_false] at h
        exact ⟨_, h ▸ hr⟩
      · rintro ⟨v, hv⟩
        simp [hout' x (by rw [hv]; simp)]
    have hbuf : bufferAt (c1.heap c.next) ⟨0, 1⟩ = .zero := by
      rw [e1, bufferAt]
      show Option.getD (GoMap.get (if c.next = c.next then _ else _ : ControlledNode).dmxBuffer _) _ = _
      rw [if_pos rfl]
      show Option.getD ((newBuffers _).get _) _ = _
      rw [newBuffers_get, replyOf_outputs]
      rfl
    have ht := tick_spec hi1 (now := 1000000000 + k * d) hperm
    have hpos : 0 ≤ (k : Int) * d := Int.mul_nonneg (by omega) hd
    obtain ⟨e, he, _, hea, _⟩ := (C49_keep_alive c1 hi1.wfOut [⟨0, 1⟩] hperm (1000000000 + k * d) ⟨0, 1⟩ c.next hr).1 (by
      rw [hbuf]
      show (0 : Int) < _
      omega)
    obtain ⟨h1, h2⟩ := ih (k + 1) (hi1.step (.tick [⟨0, 1⟩] (1000000000 + k * d)) hperm) (by omega) (by
        intro r hr
        rw [ht.nodes] at hr
        rw [ipOf, ht.node]
        rw [e1] at hr ⊢
        rcases List.mem_append.mp hr with hr | hr
        · obtain ⟨j, hj, hje⟩ := hn r hr
          refine ⟨j, by omega, ?_⟩
          have : r ≠ c.next := fun h => absurd (hi.lt_next r hr) (by rw [h]; exact Nat.lt_irrefl _)
          show (if r = c.next then _ else c.heap r : ControlledNode).node.ip = _
          rw [if_neg this]
          exact hje
        · have : r = c.next := by simpa using hr
          refine ⟨k, by omega, ?_⟩
          show (if r = c.next then _ else c.heap r : ControlledNode).node.ip = _
          rw [if_pos this]
          exact config_ip _)
      (by intro x hx; rw [ht.output] at hx; exact hout' x hx)
    refine ⟨⟨trivial, ?_, ?_⟩, ?_⟩
    · show List.Perm _ (c.pollReply (replyOf (ipNo k) 1) 0).output.keys
      rw [hc1]; exact hperm
    · show Ctrl.CanRun (((c.pollReply (replyOf (ipNo k) 1) 0).step (.tick [⟨0, 1⟩] (1000000000 + k * d))).1) _
      rw [hc1]; exact h1
    · have hs : sentFor c (wander d k (n + 1)) ⟨0, 1⟩ =
          (c1.tickOver [⟨0, 1⟩] (1000000000 + k * d)).2.filter (emAddress · = ⟨0, 1⟩) ++
            sentFor (c1.step (.tick [⟨0, 1⟩] (1000000000 + k * d))).1 (wander d (k + 1) n) ⟨0, 1⟩ := by
        rw [← hc1, sentFor, wander, (run_cons _ _ _).2, (run_cons _ _ _).2]
        show List.filter _ ([] ++ _) = _
        rw [List.nil_append, List.filter_append]
        rfl
      rw [hs, List.length_append]
      have : 0 < ((c1.tickOver [⟨0, 1⟩] (1000000000 + k * d)).2.filter (emAddress · = (⟨0, 1⟩ : Address))).length :=
        List.length_pos_of_mem (List.mem_filter.mpr ⟨he, by simpa using hea⟩)
      omega

theorem wander_times (d : Int) (n : Nat) : ∀ k, tickTimes (wander d k n) =
    (List.range' k n).map fun i : Nat => 1000000000 + (i : Int) * d := by
  induction n with
  | zero => intro k; rfl
  | succ n ih =>
    intro k
    show _ :: tickTimes (wander d (k + 1) n) = _
    rw [ih, List.range'_succ]
    rfl

theorem wander_spaced (d : Int) (n : Nat) : ∀ k, Spaced d (tickTimes (wander d k n)) := by
  induction n with
  | zero => intro k; trivial
  | succ n ih =>
    intro k
    cases n with
    | zero => trivial
    | succ n =>
      refine ⟨?_, ih (k + 1)⟩
      rw [Int.natCast_add, Int.add_mul]
      omega

/-- C79, exactly: at most `maxFPS` datagrams for a universe within a second, in every history, precisely for the
rates that divide 10⁹. -/
theorem C79_exact (m d : Int) (hd : tickerPeriod m = .ok d) :
    (∀ (t : Int) (pre os : List Op) (a : Address), (Ctrl.init m).CanRun (pre ++ os) →
      Spaced d (tickTimes (pre ++ os)) → WithinSecond t (tickTimes os) →
      (sentFor ((Ctrl.init m).run pre).1 os a).length ≤ m) ↔ m ∣ 1000000000 := by
  refine ⟨fun h => ?_, fun h t pre os a h1 h2 h3 => C79_partial m d t pre os a hd h h1 h2 h3⟩
  apply Classical.byContradiction
  intro hdiv
  have hrange := (C56_partial m).1.mp ⟨d, hd⟩
  have hdv := (C56_partial m).2 hrange
  rw [hd] at hdv
  have hdv : d = 1000000000 / m := by injection hdv
  have hd0 : 0 ≤ d := by rw [hdv]; exact Int.ediv_nonneg (by decide) (by omega)
  have hmd : m * d < 1000000000 := by
    have h1 := Int.mul_ediv_add_emod 1000000000 m
    have h2 := Int.emod_nonneg 1000000000 (by omega : m ≠ 0)
    have h3 : (1000000000 : Int) % m ≠ 0 := fun h => hdiv (Int.dvd_of_emod_eq_zero h)
    rw [hdv]
    omega
  obtain ⟨n, rfl⟩ := Int.eq_ofNat_of_zero_le (by omega : 0 ≤ m)
  obtain ⟨h1, h2⟩ := wander_sends (c := Ctrl.init n) hd0 (n + 1) 0 (inv_init n) (by omega)
    (by intro r hr; cases hr) (by intro x hx; exact absurd rfl hx)
  have := h 1000000000 [] (wander d 0 (n + 1)) ⟨0, 1⟩ h1 (wander_spaced d (n + 1) 0) (by
    intro u hu
    rw [wander_times] at hu
    obtain ⟨i, hi, rfl⟩ := List.mem_map.mp hu
    rw [List.mem_range'_1] at hi
    have h3 : 0 ≤ (i : Int) * d := Int.mul_nonneg (by omega) hd0
    have h4 : (i : Int) * d ≤ n * d := Int.mul_le_mul_of_nonneg_right (by omega) hd0
    exact ⟨by omega, by omega⟩)
  have h3 : n + 1 ≤ (sentFor ((Ctrl.init n).run []).1 (wander d 0 (n + 1)) ⟨0, 1⟩).length := h2
  omega

/-- 30 frames per second is none of them; 25 is one. -/
example : tickerPeriod 30 = .ok 33333333 ∧ ¬ (30 : Int) ∣ 1000000000 ∧ tickerPeriod 25 = .ok 40000000 ∧
    (25 : Int) ∣ 1000000000 := ⟨rfl, by decide, rfl, by decide⟩

end Verif.Props
