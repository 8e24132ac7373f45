import Verif.Lemmas.FairLoops
import Verif.Lemmas.ConcRead
import Verif.Lemmas.ConcPoll
import Verif.Lemmas.ConcWire
/-
Under fairness what is under way arrives: the arguments by counting.
-/
namespace Verif.Conc
open Packet Code Artnet Spec

/-- If what is under way never gets lost and some of it arrives as long as there is any, then all of it arrives. -/
theorem count_up {D W : Nat → Nat} (hsum : ∀ n, D n + W n ≤ D (n + 1) + W (n + 1))
    (hprog : ∀ n, 0 < W n → ∃ m, n ≤ m ∧ D n < D m) (n : Nat) : ∃ m, n ≤ m ∧ D n + W n ≤ D m := by
  have hle : ∀ {a b}, a ≤ b → D a + W a ≤ D b + W b := by
    intro a b h
    induction h with
    | refl => exact Nat.le_refl _
    | step _ ih => exact Nat.le_trans ih (hsum _)
  suffices ∀ k, ∃ m, n ≤ m ∧ (D n + W n ≤ D m ∨ k ≤ D m) by
    obtain ⟨m, hm, h⟩ := this (D n + W n)
    exact ⟨m, hm, h.elim id id⟩
  intro k
  induction k with
  | zero => exact ⟨n, Nat.le_refl _, .inr (Nat.zero_le _)⟩
  | succ k ih =>
    obtain ⟨m, hm, h | h⟩ := ih
    · exact ⟨m, hm, .inl h⟩
    · by_cases hd : D n + W n ≤ D m
      · exact ⟨m, hm, .inl hd⟩
      · have := hle hm
        obtain ⟨m', h1, h2⟩ := hprog m (by omega)
        exact ⟨m', by omega, .inr (by omega)⟩

/-- One moment at which all of a list has arrived. -/
theorem uniform {α : Type} [DecidableEq α] {D : Nat → List α} (hmono : ∀ {a b}, a ≤ b → ∀ x, (D a).count x ≤ (D b).count x)
    {n : Nat} {L : List α} (h : ∀ x, ∃ m, n ≤ m ∧ (D n).count x + L.count x ≤ (D m).count x) :
    ∃ m, n ≤ m ∧ ∀ x, (D n).count x + L.count x ≤ (D m).count x := by
  suffices ∀ l : List α, ∃ m, n ≤ m ∧ ∀ x ∈ l, (D n).count x + L.count x ≤ (D m).count x by
    obtain ⟨m, hm, h1⟩ := this L
    refine ⟨m, hm, fun x => ?_⟩
    by_cases hx : x ∈ L
    · exact h1 x hx
    · rw [List.count_eq_zero_of_not_mem hx]
      exact hmono hm x
  intro l
  induction l with
  | nil => exact ⟨n, Nat.le_refl _, nofun⟩
  | cons a l ih =>
    obtain ⟨m, hm, h1⟩ := ih
    obtain ⟨m', hm', h2⟩ := h a
    refine ⟨max m m', Nat.le_trans hm (Nat.le_max_left ..), fun x hx => ?_⟩
    rcases List.mem_cons.mp hx with rfl | hx
    · exact Nat.le_trans h2 (hmono (Nat.le_max_right ..) x)
    · exact Nat.le_trans (h1 x hx) (hmono (Nat.le_max_left ..) x)

theorem newest_eq {g : Nat} {s : Sys} (hR : Running g s) (f : Chans → List α) : s.newest f = s.queue g f := by
  have h0 := List.getElem?_eq_getElem hR.lt
  simp only [Sys.newest, List.getLast?_eq_getElem?, hR.top, Nat.add_sub_cancel, h0, queue_eq h0]

/-- The queues of earlier Starts and the newest. -/
theorem total_newest {g : Nat} {s : Sys} (hR : Running g s) (f : Chans → Nat) {ch : Chans} (h : s.chans[g]? = some ch) :
    total f s.chans = total f (s.chans.take g) + f ch := by
  obtain ⟨hlt, rfl⟩ := List.getElem?_eq_some_iff.mp h
  have : s.chans = s.chans.take g ++ [s.chans[g]] := by
    rw [List.take_append_getElem, ← hR.top, List.take_length]
  conv => lhs; rw [this]
  rw [total_append, total_cons, total_nil]; rfl

theorem run_old {P : Params} {g : Nat} {s s' : Sys} {i : Nat} {t : Thread} {c : Choice} (hr : TidyReach P s)
    (hR : Running g s) (ht : s.threads[i]? = some t) (h : Run P s i t c s') : s'.chans.take g = s.chans.take g := by
  have hat := latest hr _ (List.mem_of_getElem? ht)
  have set : ∀ {k : Nat} {ch : Chans}, k + 1 = s.chans.length → (s.chans.set k ch).take g = s.chans.take g := by
    intro k ch hk
    cases hR.same hk
    rw [List.take_set_of_le (Nat.le_refl _)]
  cases h with
  | pushSend k => cases k <;> exact set hat
  | popReply => exact set hat.1
  | popPoll | popSend | popRecv | pushDmx | pushRecv | pushPoll | pushOwn | pushReply => exact set hat
  | _ => rfl

namespace Exec
variable {P : Params} (e : Exec P)

/-- A property that no step of a session changes. -/
theorem const {α : Type} {f : Sys → α} {g : Nat} (hg : ∀ n, Running g (e.state n))
    (hrun : ∀ {s s' i t c}, TidyReach P s → Running g s → s.threads[i]? = some t → s'.crashed = none →
      Run P s i t c s' → f s' = f s)
    (hcall : ∀ s l, f { s with threads := s.threads ++ l } = f s) (n : Nat) : f (e.state n) = f (e.state 0) := by
  induction n with
  | zero => rfl
  | succ n ih =>
    rcases e.cases' n with ⟨i, t, c, ht, _, h⟩ | ⟨_, l, _, h⟩
    · exact (hrun (e.reach n) (hg n) ht (e.alive _) h).trans ih
    · rw [h, hcall, ih]

theorem old {g : Nat} (hg : ∀ n, Running g (e.state n)) (n : Nat) :
    (e.state n).chans.take g = (e.state 0).chans.take g :=
  e.const (f := fun s => s.chans.take g) hg (fun hr hR ht _ h => run_old hr hR ht h) (fun _ _ => rfl) n

theorem lost_const {g : Nat} (hg : ∀ n, Running g (e.state n)) (n : Nat) : (e.state n).lost = (e.state 0).lost := by
  refine e.const (f := Sys.lost) hg ?_ (fun _ _ => rfl) n
  intro s s' i t c hr hR _ _ h
  have hs := (hR.nothing_closed hr.reach).2.1
  cases h with
  | lose h => rw [hs] at h; cases h
  | _ => rfl

theorem callbacks_const {g : Nat} (hg : ∀ n, Running g (e.state n)) (n : Nat) :
    (e.state n).callbacks = (e.state 0).callbacks := by
  refine e.const (f := Sys.callbacks) hg ?_ (fun _ _ => rfl) n
  intro s s' i t c _ _ _ _ h
  cases h <;> rfl

/-- A quantity that no step decreases. -/
theorem mono {f : Sys → Nat} (hrun : ∀ {s s' i t c}, s.threads[i]? = some t → s'.crashed = none →
      Run P s i t c s' → f s ≤ f s')
    (hcall : ∀ s l, f { s with threads := s.threads ++ l } = f s) {n m : Nat} (h : n ≤ m) :
    f (e.state n) ≤ f (e.state m) := by
  induction h with
  | refl => exact Nat.le_refl _
  | @step m _ ih =>
    refine Nat.le_trans ih ?_
    rcases e.cases' m with ⟨i, t, c, ht, _, h⟩ | ⟨_, l, _, h⟩
    · exact hrun ht (e.alive _) h
    · rw [h, hcall]; exact Nat.le_refl _

theorem arrived_mono {n m : Nat} (h : n ≤ m) : (e.state n).arrived <+: (e.state m).arrived := by
  induction h with
  | refl => exact List.prefix_refl _
  | @step m _ ih =>
    refine ih.trans ?_
    rcases e.cases' m with ⟨i, t, c, _, _, h⟩ | ⟨_, l, _, h⟩
    · revert h
      generalize e.state (m + 1) = s'
      intro h
      cases h with
      | arrive => exact ⟨_, rfl⟩
      | _ => exact List.prefix_refl _
    · rw [h]; exact List.prefix_refl _

/-- Every element of a queue is taken, if the head always is. -/
theorem pops_all {α : Type} {q : Sys → List α} {have' : α → Thread → Prop}
    (hp : ∀ {n x l}, q (e.state n) = x :: l → ∃ m l' t, n ≤ m ∧ q (e.state m) = x :: l ++ l' ∧
      q (e.state (m + 1)) = l ++ l' ∧ t ∈ (e.state (m + 1)).threads ∧ have' x t) :
    ∀ (l1 : List α) {n : Nat} {x : α} {l2 : List α}, q (e.state n) = l1 ++ x :: l2 →
      ∃ m t, n ≤ m ∧ t ∈ (e.state m).threads ∧ have' x t := by
  intro l1
  induction l1 with
  | nil =>
    intro n x l2 h
    obtain ⟨m, _, t, hm, _, _, h1, h2⟩ := hp h
    exact ⟨m + 1, t, by omega, h1, h2⟩
  | cons a l1 ih =>
    intro n x l2 h
    obtain ⟨m, l', _, hm, _, h1, _⟩ := hp h
    obtain ⟨m', t, hm', h2⟩ := ih (n := m + 1) (x := x) (l2 := l2 ++ l') (by rw [h1]; simp)
    exact ⟨m', t, by omega, h2⟩

section handled
variable (hf : e.Fair) {g : Nat} (hg : ∀ n, Running g (e.state n)) (x : AnyPacket)

/-- How often the packet is finished. -/
def fin (x : AnyPacket) (s : Sys) : Nat := s.finished.count x

include hf hg

theorem fin_start {n i : Nat} (ht : (e.state n).threads[i]? = some (.hStart x)) :
    ∃ m, n ≤ m ∧ fin x (e.state m) < fin x (e.state (m + 1)) := by
  obtain ⟨m, c, hm, hm', _, hrun⟩ := e.goes_on hf hg (.inr (.inr (by nofun))) ht rfl
  refine ⟨m, hm, ?_⟩
  have ha := e.alive (m + 1)
  revert hrun ha
  generalize e.state (m + 1) = s'
  intro hrun ha
  cases hrun with
  | panic => cases ha
  | move m _ => cases m
  | pushSend k => cases k
  | drop => simp [fin, Sys.finished, Sys.goto, List.count_append]
  | call => simp [fin, Sys.finished, Sys.goto, List.count_append]

theorem fin_parse {n i : Nat} {p : Payload} (hd : decode p = some x) (ht : (e.state n).threads[i]? = some (.rlParse p)) :
    ∃ m, n ≤ m ∧ fin x (e.state m) < fin x (e.state (m + 1)) := by
  obtain ⟨m, c, hm, hm', _, hrun⟩ := e.goes_on hf hg (.inr (.inr (by nofun))) ht rfl
  have ha := e.alive (m + 1)
  have : ∃ j : Nat, (e.state (m + 1)).threads[j]? = some (.hStart x) := by
    revert hrun ha
    generalize e.state (m + 1) = s'
    intro hrun ha
    cases hrun with
    | panic => cases ha
    | move m _ => cases m
    | pushSend k => cases k
    | spawnHandler hu =>
      rename_i q
      have : q = x := by simpa only [decode, hu, Option.some.injEq] using hd
      subst this
      exact List.mem_iff_getElem?.mp (List.mem_append_right _ (List.mem_singleton.mpr rfl))
    | reject hu hn =>
      simp only [decode, hu] at hd
      split at hd
      · rename_i h; cases h; exact absurd rfl (hn _)
      · cases hd
  obtain ⟨j, hj⟩ := this
  obtain ⟨m', h1, h2⟩ := e.fin_start hf hg x hj
  exact ⟨m', by omega, h2⟩

theorem fin_queue {n : Nat} {p : Payload} (hd : decode p = some x) (ht : p ∈ (e.state n).queue g Chans.recv) :
    ∃ m, n ≤ m ∧ fin x (e.state m) < fin x (e.state (m + 1)) := by
  obtain ⟨l1, l2, h⟩ := List.append_of_mem ht
  obtain ⟨m, t, hm, h1, h2⟩ := e.pops_all (q := fun s => s.queue g Chans.recv) (fun h => e.pops_recv hf hg h) l1 h
  cases h2
  obtain ⟨i, hi⟩ := List.mem_iff_getElem?.mp h1
  obtain ⟨m', h3, h4⟩ := e.fin_parse hf hg x hd hi
  exact ⟨m', by omega, h4⟩

theorem fin_push {n i g0 : Nat} {b : Bytes} {p : Payload} (hd : decode p = some x)
    (ht : (e.state n).threads[i]? = some (.rdPush g0 b p)) :
    ∃ m, n ≤ m ∧ fin x (e.state m) < fin x (e.state (m + 1)) := by
  have hat := latest (e.reach n) _ (List.mem_of_getElem? ht)
  cases (hg n).same hat
  obtain ⟨m, c, hm, hm', _, hrun⟩ := e.goes_on hf hg (.inr (.inr (by nofun))) ht rfl
  have ha := e.alive (m + 1)
  have : p ∈ (e.state (m + 1)).queue g Chans.recv := by
    revert hrun ha
    generalize e.state (m + 1) = s'
    intro hrun ha
    cases hrun with
    | panic => cases ha
    | move m _ => cases m
    | pushSend k => cases k
    | pushRecv h _ => rw [queue_set_self h rfl]; simp
  obtain ⟨m', h1, h2⟩ := e.fin_queue hf hg x hd this
  exact ⟨m', by omega, h2⟩

theorem fin_got {n i : Nat} {b : Bytes} {p : Payload} (hd : decode p = some x)
    (ht : (e.state n).threads[i]? = some (.rdGot b p)) :
    ∃ m, n ≤ m ∧ fin x (e.state m) < fin x (e.state (m + 1)) := by
  obtain ⟨m, c, hm, hm', _, hrun⟩ := e.goes_on hf hg (.inr (.inr (by nofun))) ht rfl
  have hlt := (List.getElem?_eq_some_iff.mp hm').1
  have ha := e.alive (m + 1)
  have : ∃ g0, (e.state (m + 1)).threads[i]? = some (.rdPush g0 b p) := by
    revert hrun ha
    generalize e.state (m + 1) = s'
    intro hrun ha
    cases hrun with
    | panic => cases ha
    | move m _ => cases m; exact ⟨_, List.getElem?_set_self hlt⟩
    | pushSend k => cases k
  obtain ⟨g0, h0⟩ := this
  obtain ⟨m', h1, h2⟩ := e.fin_push hf hg x hd h0
  exact ⟨m', by omega, h2⟩

theorem fin_check {n i k : Nat} {b : Bytes} {src : UDPAddr} (ho : ipEqual P.localIP src.ip = false)
    (hd : decode ⟨src, copyInto (List.replicate k 0) b⟩ = some x)
    (ht : (e.state n).threads[i]? = some (.rdCheck b (some (k, src)))) :
    ∃ m, n ≤ m ∧ fin x (e.state m) < fin x (e.state (m + 1)) := by
  obtain ⟨m, c, hm, hm', _, hrun⟩ := e.goes_on hf hg (.inr (.inr (by nofun))) ht rfl
  have hlt := (List.getElem?_eq_some_iff.mp hm').1
  have ha := e.alive (m + 1)
  have hs := ((hg m).nothing_closed (e.reach m).reach).2.1
  have : (e.state (m + 1)).threads[i]? = some (.rdGot b ⟨src, copyInto (List.replicate k 0) b⟩) := by
    revert hrun ha
    generalize e.state (m + 1) = s'
    intro hrun ha
    cases hrun with
    | panic => cases ha
    | move m _ => cases m with | rdSelf _ hi => rw [ho] at hi; cases hi
    | pushSend k => cases k
    | lose h => rw [hs] at h; cases h
    | accept => exact List.getElem?_set_self hlt
  obtain ⟨m', h1, h2⟩ := e.fin_got hf hg x hd this
  exact ⟨m', by omega, h2⟩

/-- A packet under way is finished. -/
theorem fin_pending {n : Nat} (h : x ∈ (e.state n).pending P) :
    ∃ m, n ≤ m ∧ fin x (e.state m) < fin x (e.state (m + 1)) := by
  rcases List.mem_append.mp h with h | h
  · obtain ⟨p, hp, hd⟩ := List.mem_filterMap.mp h
    rcases List.mem_append.mp hp with hp | hp
    · rcases List.mem_append.mp hp with hp | hp
      · obtain ⟨hp, ho⟩ := List.mem_filter.mp hp
        obtain ⟨t, ht, hp⟩ := List.mem_flatMap.mp hp
        obtain ⟨i, hi⟩ := List.mem_iff_getElem?.mp ht
        unfold Thread.checking at hp
        split at hp
        · cases List.mem_singleton.mp hp
          exact e.fin_check hf hg x (by simpa [fromOther] using ho) hd hi
        · cases hp
      · obtain ⟨t, ht, hp⟩ := List.mem_flatMap.mp hp
        obtain ⟨i, hi⟩ := List.mem_iff_getElem?.mp ht
        unfold Thread.carried at hp
        split at hp
        · cases List.mem_singleton.mp hp; exact e.fin_got hf hg x hd hi
        · cases List.mem_singleton.mp hp; exact e.fin_push hf hg x hd hi
        · cases List.mem_singleton.mp hp; exact e.fin_parse hf hg x hd hi
        · cases hp
    · rw [newest_eq (hg n)] at hp
      exact e.fin_queue hf hg x hd hp
  · obtain ⟨t, ht, hp⟩ := List.mem_flatMap.mp h
    obtain ⟨i, hi⟩ := List.mem_iff_getElem?.mp ht
    unfold Thread.handling at hp
    split at hp
    · cases List.mem_singleton.mp hp; exact e.fin_start hf hg x hi
    · cases hp

end handled

theorem fin_mono {n m : Nat} (h : n ≤ m) (x : AnyPacket) : fin x (e.state n) ≤ fin x (e.state m) := by
  refine e.mono (f := fin x) ?_ (fun _ _ => rfl) h
  intro s s' i t c _ _ h
  cases h with
  | call | drop => simp only [fin, Sys.finished, Sys.goto, List.map_append, List.count_append]; omega
  | _ => exact Nat.le_refl _

/-- Nothing that arrives is lost. -/
theorem fin_sum {g : Nat} (hg : ∀ n, Running g (e.state n)) (x : AnyPacket) : ∃ K, ∀ n,
    ((((e.state n).arrived.filter (fromOther P)).map trunc).filterMap decode).count x =
      fin x (e.state n) + ((e.state n).pending P).count x + K := by
  refine ⟨total (wChan x) ((e.state 0).chans.take g) +
    (((e.state 0).lost.filter (fromOther P)).filterMap decode).count x, fun n => ?_⟩
  have h1 : ((((e.state n).arrived.filter (fromOther P)).map trunc).filterMap decode).count x =
      (((e.state n).accepted ++ (e.state n).checking.filter (fromOther P) ++
        (e.state n).lost.filter (fromOther P)).filterMap decode).count x := by
    have : ((e.state n).arrived.filter (fromOther P) |>.map trunc).Perm
        ((e.state n).accepted ++ (e.state n).checking.filter (fromOther P) ++ (e.state n).lost.filter (fromOther P)) := by
      rw [List.perm_iff_count]
      intro y
      rw [arrived_conservation (e.reach n).reach y]
      simp only [List.count_append, Sys.checking, List.filter_flatMap, count_flatMap_total]
      rfl
    exact (this.filterMap decode).count_eq x
  have h2 := conservation (e.reach n).reach x
  obtain ⟨ch, hc⟩ := e.chan hg n
  rw [total_newest (hg n) _ hc, e.old hg n] at h2
  have h3 : total (wThread x) (e.state n).threads =
      total (fun t => (t.carried.filterMap decode).count x) (e.state n).threads +
      total (fun t => t.handling.count x) (e.state n).threads := by
    generalize (e.state n).threads = l
    induction l with
    | nil => rfl
    | cons a l ih => simp only [total_cons, ih, wThread]; omega
  rw [h1, e.lost_const hg n]
  simp only [fin, Sys.finished, Sys.pending, List.filterMap_append, List.count_append, Sys.handling,
    count_flatMap_total, List.filterMap_flatMap, newest_eq (hg n), queue_eq hc]
  simp only [wChan] at h2 ⊢
  omega

end Exec
end Verif.Conc
