import Verif.Lemmas.Sizes
import Verif.Props.Linear
/-
C128: how large the tables of a controller get.
-/
namespace Verif.Props
open Conc Packet Code Artnet Spec

/-- C128: after every history there are at most 2^32 known nodes, and at most 65536 and at most four per known node
routes. -/
theorem C128_bounds (m : Int) (os : List Op) (h : (Ctrl.init m).CanRun os) :
    let c := ((Ctrl.init m).run os).1
    c.nodes.length ≤ 4294967296 ∧ c.output.keys.length ≤ 65536 ∧ c.output.keys.length ≤ 4 * c.nodes.length := by
  have hi := (inv_init m).run os h
  have hr := node_reply m os h
  have h39 := C39_one_per_ip m os h
  revert hi hr h39
  generalize ((Ctrl.init m).run os).1 = c
  intro hi hr h39
  refine ⟨?_, addresses_le hi.wfOut, ?_⟩
  · have := addresses_bound h39 (by
      intro x hx
      obtain ⟨r, hm, rfl⟩ := List.mem_map.mp hx
      obtain ⟨p, hp⟩ := hr r (hi.lt_next r hm)
      show (c.heap r).node.ip.length = 4
      rw [hp, config_ip]
      exact p.ipAddress.len)
    simpa using this
  · have hsub : c.output.keys ⊆ c.nodes.flatMap fun r => (c.heap r).node.outputs := by
      intro a ha
      obtain ⟨r, hm⟩ := (GoMap.mem_keys_iff _ _).mp ha
      obtain ⟨h1, h2⟩ := hi.out a r hm
      exact List.mem_flatMap.mpr ⟨r, h1, h2⟩
    refine Nat.le_trans (hi.wfOut.length_le_of_subset hsub) (flat_bound _ 4 _ ?_)
    intro r hm
    obtain ⟨p, hp⟩ := hr r (hi.lt_next r hm)
    show (c.heap r).node.outputs.length ≤ 4
    rw [hp]
    exact config_ports p

/-- The same under every schedule. -/
theorem C128_concurrent {P : Params} {s : Sys} (h : Reach P s) (hl : s.lock = false) :
    s.ctrl.nodes.length ≤ 4294967296 ∧ s.ctrl.output.keys.length ≤ 65536 ∧
    s.ctrl.output.keys.length ≤ 4 * s.ctrl.nodes.length := by
  obtain ⟨h1, _, h3⟩ := C73_linearizable h
  have := C128_bounds P.maxFPS s.hist h1
  rw [h3 hl] at this
  exact this

/-- The IP addresses in the tracked replies of a history whose time is at least `t`. -/
def heardSince (t : Int) (os : List Op) : List Bytes :=
  os.filterMap fun o => match o with
    | .reply p now => if Tracked p ∧ t ≤ now then some p.ipAddress.val else none
    | _ => none

theorem heard_mem {ip : Bytes} {t : Int} : ∀ (os : List Op) (u : Option Int), heardFrom ip u os = some t → u = some t ∨
    ∀ t0, t0 ≤ t → ip ∈ heardSince t0 os := by
  intro os
  induction os with
  | nil => intro u h; exact .inl h
  | cons o os ih =>
    intro u h
    have later : (∀ t0, t0 ≤ t → ip ∈ heardSince t0 os) → ∀ t0, t0 ≤ t → ip ∈ heardSince t0 (o :: os) := by
      intro hx t0 ht
      have := hx t0 ht
      unfold heardSince at this ⊢
      rw [List.filterMap_cons]
      split
      · exact this
      · exact List.mem_cons_of_mem _ this
    cases o with
    | reply p now =>
      rw [heardFrom] at h
      rcases ih _ h with h1 | h1
      · split at h1
        · rename_i hp
          refine .inr fun t0 ht => ?_
          cases h1
          unfold heardSince
          rw [List.filterMap_cons]
          simp only [hp.1, ht, and_self, if_true, ← hp.2]
          exact List.mem_cons_self
        · exact .inl h1
      · exact .inr (later h1)
    | gc _ => exact (ih _ h).imp id later
    | send _ _ => exact (ih _ h).imp id later
    | tick _ _ => exact (ih _ h).imp id later
    | restart => exact (ih _ h).imp id later

/-- C128: after a pass of gcNode the known nodes are among the addresses in the replies of the seven seconds before it
began, so there are at most as many as such replies. -/
theorem C128_recent (m : Int) (os : List Op) (h : (Ctrl.init m).CanRun os) (clock : Nat → Int) (hm : Monotone clock) :
    let c := ((Ctrl.init m).run os).1.gcNode clock
    (∀ r ∈ c.nodes, ipOf c r ∈ heardSince (clock 0 - 7000000000) os) ∧
    c.nodes.length ≤ (heardSince (clock 0 - 7000000000) os).length := by
  have hi := (inv_init m).run os h
  obtain ⟨h1, h2, h3, _⟩ := C43_gc_exact m os h clock hm
  have hh := lastSeen_heard m os h
  have h39 := C39_one_per_ip m os h
  revert hi h1 h2 h3 hh h39
  generalize ((Ctrl.init m).run os).1 = c
  intro hi h1 h2 h3 hh h39
  have key : ∀ r ∈ (c.gcNode clock).nodes, ipOf c r ∈ heardSince (clock 0 - 7000000000) os := by
    intro r hr
    have hr' := h2.subset hr
    rcases heard_mem os none (hh r hr') with h0 | h0
    · cases h0
    · refine h0 _ ?_
      have : ¬ (c.heap r).lastSeen + 7000000000 < clock 0 := fun hlt => h3 r hr' hlt hr
      omega
  refine ⟨?_, ?_⟩
  · intro r hr
    show ((c.gcNode clock).heap r).node.ip ∈ _
    rw [h1]
    exact key r hr
  · have hn : ((c.gcNode clock).nodes.map (ipOf c)).Nodup := (h2.map _).nodup h39
    have := hn.length_le_of_subset (l₂ := heardSince (clock 0 - 7000000000) os) (by
      intro x hx
      obtain ⟨r, hr, rfl⟩ := List.mem_map.mp hx
      exact key r hr)
    simpa using this

theorem flood_from (u : UInt8) (t : Int) : ∀ (ips : List (Arr 4)) (c : Ctrl), Inv c →
    (c.nodes.map (ipOf c) ++ ips.map (·.val)).Nodup →
    let c' := (c.run (ips.map fun ip => .reply (replyOf ip u) t)).1
    c'.nodes.map (ipOf c') = c.nodes.map (ipOf c) ++ ips.map (·.val) := by
  intro ips
  induction ips with
  | nil => intro c _ _; simp [Ctrl.run]
  | cons ip ips ih =>
    intro c hi hn
    have hnew : known c (configFromArtPollReply (replyOf ip u)).ip = none := by
      cases hk : known c (configFromArtPollReply (replyOf ip u)).ip with
      | none => rfl
      | some r =>
        exfalso
        obtain ⟨h1, h2⟩ := known_some hk
        rw [config_ip] at h2
        rw [List.nodup_append] at hn
        exact hn.2.2 _ (List.mem_map_of_mem h1) _ (List.mem_map_of_mem List.mem_cons_self) h2
    have he : c.pollReply (replyOf ip u) t = addedNode c (configFromArtPollReply (replyOf ip u)) t := by
      rw [pollReply_eq, if_pos (replyOf_tracked ip u), updateNode_eq, hnew]
    have hips : (c.pollReply (replyOf ip u) t).nodes.map (ipOf (c.pollReply (replyOf ip u) t)) =
        c.nodes.map (ipOf c) ++ [ip.val] := by
      rw [he]
      show (c.nodes ++ [c.next]).map _ = _
      rw [List.map_append]
      congr 1
      · refine List.map_congr_left fun r hr => ?_
        have : r ≠ c.next := fun e => absurd (hi.lt_next r hr) (by rw [e]; exact Nat.lt_irrefl _)
        simp [ipOf, addedNode, this]
      · simp [ipOf, addedNode, config_ip, replyOf]
    have := ih (c.pollReply (replyOf ip u) t) (hi.pollReply _ _) (by
      rw [hips]; simpa using hn)
    simp only at this ⊢
    rw [show (c.run ((ip :: ips).map fun ip => .reply (replyOf ip u) t)).1 =
      ((c.pollReply (replyOf ip u) t).run (ips.map fun ip => .reply (replyOf ip u) t)).1 from rfl, this, hips]
    simp

/-- C128: nothing else bounds the table: every list of different addresses is the node table after one reply from each,
and nothing requires the replies to come from different hosts. -/
theorem C128_flood (m : Int) (u : UInt8) (t : Int) (ips : List (Arr 4)) (hn : (ips.map (·.val)).Nodup) :
    let os : List Op := ips.map fun ip => .reply (replyOf ip u) t
    (Ctrl.init m).CanRun os ∧
    ((Ctrl.init m).run os).1.nodes.map (ipOf ((Ctrl.init m).run os).1) = ips.map (·.val) := by
  refine ⟨?_, ?_⟩
  · generalize Ctrl.init m = c
    clear hn
    induction ips generalizing c with
    | nil => trivial
    | cons ip ips ih => exact ⟨trivial, ih _⟩
  · have := flood_from u t ips (Ctrl.init m) (inv_init m) (by simpa [Ctrl.init] using hn)
    simpa [Ctrl.init] using this

/-- Two nodes announce themselves; eight seconds after the first one only the second one is left. -/
example : ([ipA, ipB].map (·.val)).Nodup ∧
    ((Ctrl.init 40).CanRun [.reply (replyOf ipA 1) 0, .reply (replyOf ipB 2) (6 * second)]) ∧
    heardSince (8 * second - 7000000000) [.reply (replyOf ipA 1) 0, .reply (replyOf ipB 2) (6 * second)] = [ipB.val] := by
  refine ⟨by decide, ⟨trivial, trivial, trivial⟩, ?_⟩
  have h1 := replyOf_tracked ipA 1
  have h2 := replyOf_tracked ipB 2
  have e1 : ¬ (8 * second - 7000000000 ≤ 0) := by decide
  have e2 : 8 * second - 7000000000 ≤ 6 * second := by decide
  simp only [heardSince, List.filterMap_cons, List.filterMap_nil, h1, h2, e1, e2, and_true, and_false, if_true, if_false]
  rfl

end Verif.Props
