import Verif.Spec.Net
import Verif.Lemmas.ConcProv
import Verif.Lemmas.ConcRun
/-
Networks of hosts: every host by itself is an execution of the library, and what arrives has been sent.
-/
namespace Verif.Net
open Artnet Conc Packet Spec

/-- What one action does to the datagrams written and read. -/
theorem exec_io {P : Params} {s s' : Sys} {a : Act} (h : s.exec P a = some s') :
    s.wire <+: s'.wire ∧
    (s'.arrived = s.arrived ∨ ∃ i src d, a = .run i (.read src d) ∧ s'.arrived = s.arrived ++ [⟨src, d⟩]) := by
  unfold Sys.exec at h
  split at h
  · cases h
  cases a with
  | run i c =>
    dsimp only at h
    split at h
    · cases h
    · rename_i t ht
      have hr := step_Run h
      revert h
      cases hr with
      | arrive ho =>
        rename_i k b src d
        intro h
        have key : ∃ src d, c = .read src d := by
          cases c with
          | read src d => exact ⟨src, d, rfl⟩
          | fail =>
            have h := congrArg (fun o => o.map (·.arrived.length)) h
            simp [Sys.step, Sys.goto] at h
          | _ => simp [Sys.step] at h
        obtain ⟨src', d', rfl⟩ := key
        have h := congrArg (fun o => o.map (·.arrived)) h
        simp only [Sys.step, ho, if_true, Sys.goto, Option.map_some, Option.some.injEq, List.append_cancel_left_eq,
          List.cons.injEq, and_true] at h
        exact ⟨List.prefix_rfl, .inr ⟨_, _, _, rfl, by rw [h]; rfl⟩⟩
      | write => exact fun _ => ⟨List.prefix_append _ _, .inl rfl⟩
      | _ => exact fun _ => ⟨List.prefix_rfl, .inl rfl⟩
  | start =>
    dsimp only at h
    repeat' split at h
    all_goals first
      | (cases h; done)
      | (cases h; exact ⟨List.prefix_rfl, .inl rfl⟩)
  | _ =>
    dsimp only at h
    repeat' split at h
    all_goals first
      | (cases h; done)
      | (cases h; exact ⟨List.prefix_rfl, .inl rfl⟩)

/-- What the network guarantees. -/
structure Sound (N : Setting) (es : List Event) (n : State) : Prop where
  len : n.length = N.hosts.length
  /-- Every host by itself is an execution of the library. -/
  proj : ∀ (j : Nat) (h : Host) (s : Sys), N.hosts[j]? = some h → n[j]? = some s →
    ∃ as, (Sys.init h.params).execs h.params as = some s ∧ ∀ d a, Act.call d a ∈ as → Event.act j (.call d a) ∈ es
  /-- What has been read has been written. -/
  sent : ∀ (j : Nat) (s : Sys), n[j]? = some s → ∀ x ∈ s.arrived, ∃ (k : Nat) (h : Host) (t : Sys),
    N.hosts[k]? = some h ∧ n[k]? = some t ∧ ∃ p ∈ t.wire, x = ⟨h.addr, p.data⟩ ∧ N.reaches k p.address j = true

theorem execs_snoc {P : Params} {s t u : Sys} {as : List Act} {a : Act} (h : s.execs P as = some t)
    (hx : t.exec P a = some u) : s.execs P (as ++ [a]) = some u := by
  induction as generalizing s with
  | nil => cases h; simp [Sys.execs, hx]
  | cons b as ih =>
    simp only [List.cons_append, Sys.execs] at h ⊢
    cases h1 : s.exec P b with
    | none => rw [h1] at h; cases h
    | some s1 => rw [h1] at h; exact ih h

theorem sound_init (N : Setting) : Sound N [] N.init where
  len := by simp [Setting.init]
  proj := by
    intro j h s hj hs
    simp only [Setting.init, List.getElem?_map, hj, Option.map_some, Option.some.injEq] at hs
    subst hs
    exact ⟨[], rfl, by simp⟩
  sent := by
    intro j s hs x hx
    simp only [Setting.init, List.getElem?_map, Option.map_eq_some_iff] at hs
    obtain ⟨h, _, rfl⟩ := hs
    cases hx

theorem sound_local {N : Setting} {es : List Event} {n n' : State} {j : Nat} {a : Act} {e : Event} (h : Sound N es n)
    (hx : N.local n j a = some n') (hc : ∀ d x, a = .call d x → e = .act j (.call d x))
    (hr : ∀ i src d, a = .run i (.read src d) → ∃ (k : Nat) (h : Host) (t : Sys), N.hosts[k]? = some h ∧ n[k]? = some t ∧
      ∃ p ∈ t.wire, (⟨src, d⟩ : Payload) = ⟨h.addr, p.data⟩ ∧ N.reaches k p.address j = true) :
    Sound N (es ++ [e]) n' := by
  unfold Setting.local at hx
  split at hx
  case h_2 => cases hx
  rename_i hj s hhj hsj
  obtain ⟨s', hs', rfl⟩ := Option.map_eq_some_iff.mp hx
  obtain ⟨hw, ha⟩ := exec_io hs'
  have hlt : j < n.length := (List.getElem?_eq_some_iff.mp hsj).1
  -- what was on the wire is still there
  have keep : ∀ (k : Nat) (t : Sys), n[k]? = some t → ∃ t', (n.set j s')[k]? = some t' ∧ ∀ p ∈ t.wire, p ∈ t'.wire := by
    intro k t ht
    by_cases hk : k = j
    · subst hk
      rw [hsj] at ht
      cases ht
      exact ⟨s', by simp [hlt], fun p hp => hw.subset hp⟩
    · exact ⟨t, by rw [List.getElem?_set_ne (Ne.symm hk)]; exact ht, fun p hp => hp⟩
  refine ⟨by rw [List.length_set]; exact h.len, ?_, ?_⟩
  · intro k hk t hhk ht
    by_cases hkj : k = j
    · subst hkj
      rw [hhj] at hhk
      cases hhk
      rw [List.getElem?_set_self hlt] at ht
      cases ht
      obtain ⟨as, h1, h2⟩ := h.proj k hj s hhj hsj
      refine ⟨as ++ [a], execs_snoc h1 hs', fun d x hm => ?_⟩
      rcases List.mem_append.mp hm with hm | hm
      · exact List.mem_append_left _ (h2 d x hm)
      · rw [List.mem_singleton] at hm
        rw [hc d x hm.symm]
        simp
    · rw [List.getElem?_set_ne (Ne.symm hkj)] at ht
      obtain ⟨as, h1, h2⟩ := h.proj k hk t hhk ht
      exact ⟨as, h1, fun d x hm => List.mem_append_left _ (h2 d x hm)⟩
  · intro k t ht x hxm
    have old : ∀ (k : Nat) (t : Sys), n[k]? = some t → ∀ x ∈ t.arrived, ∃ (k' : Nat) (h : Host) (t : Sys),
        N.hosts[k']? = some h ∧ (n.set j s')[k']? = some t ∧
        ∃ p ∈ t.wire, x = ⟨h.addr, p.data⟩ ∧ N.reaches k' p.address k = true := by
      intro k t ht x hxm
      obtain ⟨k', h', t', g1, g2, p, g3, g4, g5⟩ := h.sent k t ht x hxm
      obtain ⟨t'', g6, g7⟩ := keep k' t' g2
      exact ⟨k', h', t'', g1, g6, p, g7 p g3, g4, g5⟩
    by_cases hkj : k = j
    · subst hkj
      rw [List.getElem?_set_self hlt] at ht
      cases ht
      rcases ha with ha | ⟨i, src, d, haa, ha⟩
      · rw [ha] at hxm
        exact old k s hsj x hxm
      · rw [ha] at hxm
        rcases List.mem_append.mp hxm with hxm | hxm
        · exact old k s hsj x hxm
        · rw [List.mem_singleton] at hxm
          subst hxm
          obtain ⟨k', h', t', g1, g2, p, g3, g4, g5⟩ := hr i src d haa
          obtain ⟨t'', g6, g7⟩ := keep k' t' g2
          exact ⟨k', h', t'', g1, g6, p, g7 p g3, g4, g5⟩
    · rw [List.getElem?_set_ne (Ne.symm hkj)] at ht
      exact old k t ht x hxm

theorem sound_exec {N : Setting} {es : List Event} {n n' : State} {e : Event} (h : Sound N es n)
    (hx : N.exec n e = some n') : Sound N (es ++ [e]) n' := by
  unfold Setting.exec at hx
  split at hx
  · split at hx
    · cases hx
    · rename_i j a hr
      refine sound_local h hx (fun d x ha => by rw [ha]) fun i src d ha => ?_
      rw [ha] at hr
      exact absurd rfl hr
  · split at hx
    · rename_i k m j i _ _ hh s hk hs
      split at hx
      · cases hx
      · rename_i p hp
        split at hx
        · rename_i hr
          refine sound_local h hx (by nofun) fun i' src d ha => ?_
          cases ha
          exact ⟨k, hh, s, hk, hs, p, List.mem_of_getElem? hp, rfl, hr⟩
        · cases hx
    · cases hx

theorem sound {N : Setting} {es : List Event} {n : State} (h : N.execs N.init es = some n) : Sound N es n := by
  suffices ∀ (es0 es : List Event) (n0 : State), Sound N es0 n0 → N.execs n0 es = some n → Sound N (es0 ++ es) n from
    this [] es _ (sound_init N) h
  intro es0 es
  induction es generalizing es0 with
  | nil => intro n0 h0 hx; cases hx; simpa using h0
  | cons e es ih =>
    intro n0 h0 hx
    simp only [Setting.execs] at hx
    split at hx
    · cases hx
    · rename_i n1 h1
      have := ih (es0 ++ [e]) n1 (sound_exec h0 h1) hx
      simpa using this

theorem deliveries_append (j : Nat) (es fs : List Event) : deliveries j (es ++ fs) = deliveries j es ++ deliveries j fs := by
  induction es with
  | nil => rfl
  | cons e es ih =>
    cases e with
    | act => exact ih
    | deliver k m j' i =>
      simp only [List.cons_append, deliveries]
      split
      · rw [ih]; rfl
      · exact ih

/-- Datagram `m` of host `k`, as it is received. -/
def sentBy (N : Setting) (n : State) (x : Nat × Nat) : Option Payload :=
  match N.hosts[x.1]?, n[x.1]? with
  | some h, some t => t.wire[x.2]?.map fun p => ⟨h.addr, p.data⟩
  | _, _ => none

theorem sentBy_mono {N : Setting} {n n' : State} {j : Nat} {a : Act} (hx : N.local n j a = some n') {x : Nat × Nat}
    {p : Payload} (h : sentBy N n x = some p) : sentBy N n' x = some p := by
  unfold Setting.local at hx
  split at hx
  case h_2 => cases hx
  rename_i hj s hhj hsj
  obtain ⟨s', hs', rfl⟩ := Option.map_eq_some_iff.mp hx
  obtain ⟨hw, _⟩ := exec_io hs'
  have hlt : j < n.length := (List.getElem?_eq_some_iff.mp hsj).1
  unfold sentBy at h ⊢
  by_cases hk : x.1 = j
  · subst hk
    rw [hhj, hsj] at h
    rw [hhj, List.getElem?_set_self hlt]
    dsimp only at h ⊢
    obtain ⟨q, hq, rfl⟩ := Option.map_eq_some_iff.mp h
    obtain ⟨l, hl⟩ := hw
    rw [← hl, List.getElem?_append_left (List.getElem?_eq_some_iff.mp hq).1, hq]
    rfl
  · rw [List.getElem?_set_ne (Ne.symm hk)]
    exact h

/-- What has arrived at a host has been delivered to it, in this order. -/
theorem delivered {N : Setting} {es : List Event} {n : State} (h : N.execs N.init es = some n) {j : Nat} {s : Sys}
    (hs : n[j]? = some s) : (s.arrived.map some).Sublist ((deliveries j es).map (sentBy N n)) ∧
      ∀ x ∈ deliveries j es, (sentBy N n x).isSome := by
  suffices ∀ (es es0 : List Event) (n0 : State),
      (∀ (j : Nat) (s : Sys), n0[j]? = some s → (s.arrived.map some).Sublist ((deliveries j es0).map (sentBy N n0)) ∧
        ∀ x ∈ deliveries j es0, (sentBy N n0 x).isSome) →
      N.execs n0 es = some n →
      ∀ (j : Nat) (s : Sys), n[j]? = some s →
        (s.arrived.map some).Sublist ((deliveries j (es0 ++ es)).map (sentBy N n)) ∧
        ∀ x ∈ deliveries j (es0 ++ es), (sentBy N n x).isSome by
    refine this es [] N.init (fun j s hs => ?_) h j s hs
    simp only [Setting.init, List.getElem?_map, Option.map_eq_some_iff] at hs
    obtain ⟨h, _, rfl⟩ := hs
    exact ⟨List.nil_sublist _, nofun⟩
  intro es
  induction es with
  | nil => intro es0 n0 h0 hx; cases hx; simpa using h0
  | cons e es ih =>
    intro es0 n0 h0 hx
    simp only [Setting.execs] at hx
    split at hx
    · cases hx
    rename_i n1 h1
    have := ih (es0 ++ [e]) n1 ?_ hx
    · simpa using this
    have keep : ∀ (i : Nat) (a : Act), N.local n0 i a = some n1 → ∀ (j : Nat) (s : Sys), n0[j]? = some s →
        (s.arrived.map some).Sublist ((deliveries j es0).map (sentBy N n1)) ∧
        ∀ x ∈ deliveries j es0, (sentBy N n1 x).isSome := by
      intro i a hl j s hs
      obtain ⟨g1, g2⟩ := h0 j s hs
      have : ∀ x ∈ deliveries j es0, sentBy N n1 x = sentBy N n0 x := by
        intro x hx
        obtain ⟨p, hp⟩ := Option.isSome_iff_exists.mp (g2 x hx)
        rw [hp]
        exact sentBy_mono hl hp
      rw [List.map_congr_left this]
      exact ⟨g1, fun x hx => by rw [this x hx]; exact g2 x hx⟩
    intro j s hs
    rw [deliveries_append]
    cases e with
    | act j' a =>
      simp only [Setting.exec] at h1
      split at h1
      · cases h1
      rename_i hr
      rw [show deliveries j [Event.act j' a] = [] from rfl, List.append_nil]
      have hk := keep j' a h1
      have hl := h1
      unfold Setting.local at h1
      split at h1
      case h_2 => cases h1
      rename_i hj s0 hhj hsj
      obtain ⟨s', hs', rfl⟩ := Option.map_eq_some_iff.mp h1
      have hlt : j' < n0.length := (List.getElem?_eq_some_iff.mp hsj).1
      by_cases hjj : j = j'
      · subst hjj
        rw [List.getElem?_set_self hlt] at hs
        cases hs
        rcases (exec_io hs').2 with ha | ⟨i, src, d, rfl, _⟩
        · rw [ha]; exact hk j s0 hsj
        · exact absurd rfl hr
      · rw [List.getElem?_set_ne (Ne.symm hjj)] at hs
        exact hk j s hs
    | deliver k m j' i =>
      simp only [Setting.exec] at h1
      split at h1
      case h_2 => cases h1
      rename_i hh t hhk htk
      split at h1
      · cases h1
      rename_i p hp
      split at h1
      case isFalse => cases h1
      have hsent : sentBy N n0 (k, m) = some ⟨hh.addr, p.data⟩ := by
        simp only [sentBy, hhk, htk, hp, Option.map_some]
      have hk := keep _ _ h1
      have hsent1 := sentBy_mono h1 hsent
      unfold Setting.local at h1
      split at h1
      case h_2 => cases h1
      rename_i hj s0 hhj hsj
      obtain ⟨s', hs', rfl⟩ := Option.map_eq_some_iff.mp h1
      have hlt : j' < n0.length := (List.getElem?_eq_some_iff.mp hsj).1
      by_cases hjj : j' = j
      · subst hjj
        rw [List.getElem?_set_self hlt] at hs
        cases hs
        simp only [deliveries, if_true, List.map_append, List.map_cons, List.map_nil, List.mem_append,
          List.mem_singleton, hsent1]
        obtain ⟨g1, g2⟩ := hk j' s0 hsj
        refine ⟨?_, ?_⟩
        · rcases (exec_io hs').2 with ha | ⟨i, src, d, he, ha⟩
          · rw [ha]
            exact g1.trans (List.sublist_append_left _ _)
          · cases he
            rw [ha, List.map_append]
            exact List.Sublist.append g1 (List.Sublist.refl _)
        · rintro x (hx | rfl)
          · exact g2 x hx
          · rw [hsent1]; rfl
      · rw [List.getElem?_set_ne hjj] at hs
        simp only [deliveries, if_neg hjj, List.append_nil]
        exact hk j s hs

theorem countP_zipIdx {α : Type} (f : α → Bool) (l : List α) (i : Nat) :
    (l.zipIdx i).countP (fun x => f x.1) = l.countP f := by
  induction l generalizing i with
  | nil => rfl
  | cons a l ih => simp [List.zipIdx_cons, List.countP_cons, ih]

theorem sum_zipIdx {α : Type} (f : α → Nat) (l : List α) (i : Nat) :
    ((l.zipIdx i).map fun x => f x.1).sum = (l.map f).sum := by
  induction l generalizing i with
  | nil => rfl
  | cons a l ih => simp [List.zipIdx_cons, ih]

end Verif.Net
