import Verif.Spec.Example
import Verif.Lemmas.Accept
/-
The programs under example/: the choice of the address, and invariants of example/poll.
-/
namespace Verif.Example
open Artnet Packet Code Spec

theorem four {a : Bytes} (h : a.length = 4) : ∃ x y z w, a = [x, y, z, w] := by
  match a, h with
  | [x, y, z, w], _ => exact ⟨x, y, z, w, rfl⟩

theorem and_ff (x : UInt8) : x &&& 0xff = x := by
  apply UInt8.toNat_inj.mp
  rw [UInt8.toNat_and]
  show x.toNat &&& (2 ^ 8 - 1) = _
  rw [Nat.and_two_pow_sub_one_eq_mod]
  exact Nat.mod_eq_of_lt x.toNat_lt

theorem masked {a : Bytes} {x y z w : UInt8} (h : to4 a = [x, y, z, w]) : exampleNet a = true ↔ x = 2 := by
  simp only [exampleNet, netContains, h]
  simp [and_ff]
  exact ⟨fun h => h.symm, fun h => h.symm⟩

theorem exampleNet_iff (a : Bytes) : exampleNet a = true ↔ InTwo a := by
  by_cases h4 : a.length = 4
  · obtain ⟨x, y, z, w, rfl⟩ := four h4
    rw [masked (a := [x, y, z, w]) rfl]
    simp [InTwo]
  · by_cases h16 : a.length = 16 ∧ a.take 12 = v4InV6Prefix
    · obtain ⟨x, y, z, w, hd⟩ := four (a := a.drop 12) (by simp; omega)
      have ht : to4 a = [x, y, z, w] := by rw [to4, if_neg h4, if_pos h16, hd]
      rw [masked ht, InTwo]
      have hx : a[12]? = some x := by
        have : (a.drop 12)[0]? = some x := by rw [hd]; rfl
        simpa using this
      rw [hx]
      simp [h16.1, h16.2]
    · have ht : to4 a = [] := by rw [to4, if_neg h4, if_neg h16]
      have : exampleNet a = false := by simp [exampleNet, netContains, ht, h4]
      rw [this]
      simp [InTwo, h4]
      intro h h'
      exact absurd ⟨h, h'⟩ h16

theorem chooseFrom_first (ip : Bytes) (pre : List Bytes) (a : Bytes) (post : List Bytes)
    (hp : ∀ x ∈ pre, ¬ InTwo x) (ha : InTwo a) : chooseFrom ip (pre ++ a :: post) = a := by
  induction pre generalizing ip with
  | nil => simp [chooseFrom, (exampleNet_iff a).mpr ha]
  | cons x pre ih =>
    have : ¬ exampleNet x = true := fun h => hp x (by simp) ((exampleNet_iff x).mp h)
    rw [List.cons_append, chooseFrom, if_neg this]
    exact ih x fun y hy => hp y (by simp [hy])

theorem chooseFrom_last (ip : Bytes) (as : List Bytes) (h : ∀ x ∈ as, ¬ InTwo x) :
    chooseFrom ip as = as.getLast?.getD ip := by
  induction as generalizing ip with
  | nil => rfl
  | cons x as ih =>
    have : ¬ exampleNet x = true := fun h' => h x (by simp) ((exampleNet_iff x).mp h')
    rw [chooseFrom, if_neg this, ih x fun y hy => h y (by simp [hy])]
    simp [List.getLast?_cons]

theorem own_iff (src : UDPAddr) : ipEqual src.ip examplePollIP = true ↔ Own src := by
  unfold ipEqual Own examplePollIP
  by_cases h4 : src.ip.length = 4
  · have : src.ip ≠ v4InV6Prefix ++ [2, 12, 12, 12] := fun h => by rw [h] at h4; revert h4; decide
    simp [h4, this]
  · have h4' : src.ip ≠ [2, 12, 12, 12] := fun h => h4 (by rw [h]; rfl)
    by_cases h16 : src.ip.length = 16
    · simp [h16, h4']
      constructor
      · rintro ⟨h1, h2⟩
        rw [← List.take_append_drop 12 src.ip, h1, h2]
      · intro h; rw [h]; decide
    · have : src.ip ≠ v4InV6Prefix ++ [2, 12, 12, 12] := fun h => h16 (by rw [h]; rfl)
      simp [h4, h16, h4', this]

theorem foreign_append (as bs : List ExAct) : foreign (as ++ bs) = foreign as ++ foreign bs := by
  induction as with
  | nil => rfl
  | cons a as ih => cases a <;> simp [foreign, ih]; split <;> simp

/-- The reader: everything from other hosts is handed over as it arrived, in order. -/
structure Feed (f : List Bytes) (s : ExPoll) : Prop where
  len : s.buf.length = 4096
  fed : match s.reader with
    | .read => s.handed = f
    | .send n => s.handed ++ [s.buf.take n] = f

theorem take_copyInto (buf d : Bytes) (h : buf.length = 4096) :
    (copyInto buf d).take (min 4096 d.length) = d.take 4096 := by
  have : min 4096 d.length = (d.take 4096).length := by simp
  rw [copyInto, h, this, List.take_left]

theorem Feed.step {f : List Bytes} {s s' : ExPoll} {a : ExAct} (h : Feed f s) (hs : s.step a = some s') :
    Feed (f ++ foreign [a]) s' := by
  obtain ⟨len, fed⟩ := h
  cases a with
  | read src d =>
    cases hr : s.reader with
    | send n => cases hm : s.main <;> simp [ExPoll.step, hr, hm] at hs
    | read =>
      rw [hr] at fed
      have : s' = if ipEqual src.ip examplePollIP then { s with buf := copyInto s.buf d }
          else { s with buf := copyInto s.buf d, reader := .send (min 4096 d.length) } := by
        cases hm : s.main <;> simp [ExPoll.step, hr, hm] at hs <;> (split at hs <;> simp_all)
      subst this
      by_cases ho : ipEqual src.ip examplePollIP = true
      · rw [if_pos ho]
        refine ⟨by simp [copyInto_length, len], ?_⟩
        have := (own_iff src).mp ho
        simp [hr, foreign, this, fed]
      · rw [if_neg ho]
        refine ⟨by simp [copyInto_length, len], ?_⟩
        have : ¬ Own src := fun h => ho ((own_iff src).mpr h)
        simp [foreign, this, take_copyInto _ _ len]
        exact fed
  | readError =>
    have : s' = s := by
      cases hr : s.reader <;> cases hm : s.main <;> simp [ExPoll.step, hr, hm] at hs <;> exact hs.symm
    subst this
    exact ⟨len, by simpa [foreign] using fed⟩
  | hand =>
    cases hr : s.reader <;> cases hm : s.main <;> simp [ExPoll.step, hr, hm] at hs
    subst hs
    rw [hr] at fed
    exact ⟨len, by simpa [foreign] using fed⟩
  | parse =>
    have : s'.buf = s.buf ∧ s'.reader = s.reader ∧ s'.handed = s.handed := by
      cases hm : s.main <;> simp [ExPoll.step, hm] at hs
      split at hs <;> (cases hs; exact ⟨rfl, rfl, rfl⟩)
    exact ⟨by rw [this.1]; exact len, by rw [this.1, this.2.1, this.2.2]; simpa [foreign] using fed⟩
  | timeout =>
    cases hm : s.main <;> simp [ExPoll.step, hm] at hs
    subst hs
    exact ⟨len, by simpa [foreign] using fed⟩

/-- The main goroutine, if nothing is read between a communication and its parse. -/
def Heard (busy : Bool) (s : ExPoll) : Prop :=
  match s.main with
  | .wait | .done => s.printed = s.handed.filterMap replyConfig ∧ ∀ d ∈ s.handed, ¬ OtherPacket d
  | .got n => busy = true ∧ ∃ pre, s.handed = pre ++ [s.buf.take n] ∧ s.printed = pre.filterMap replyConfig ∧
      ∀ d ∈ pre, ¬ OtherPacket d
  | .panicked => ∃ pre d, s.handed = pre ++ [d] ∧ s.printed = pre.filterMap replyConfig ∧
      (∀ d ∈ pre, ¬ OtherPacket d) ∧ OtherPacket d

/-- Whether a communication awaits its parse. -/
def busyAfter : Bool → ExAct → Bool
  | _, .hand => true
  | _, .parse => false
  | busy, _ => busy

theorem calm_cons {busy : Bool} {a : ExAct} {as : List ExAct} (h : calm busy (a :: as) = true) :
    calm (busyAfter busy a) as = true ∧ ((∃ src d, a = .read src d) → busy = false) := by
  cases a with
  | read src d =>
    simp only [calm, Bool.and_eq_true, Bool.not_eq_true'] at h
    exact ⟨h.2, fun _ => h.1⟩
  | _ => exact ⟨h, by simp⟩

theorem parse_cases (d : Bytes) :
    (∃ p, unmarshal d = .ok (some (.pollReply p), none)) ∨ OtherPacket d ∨
    (∃ p e, unmarshal d = .ok (p, some e)) := by
  obtain ⟨⟨p, e⟩, h⟩ := unmarshal_total d
  cases e with
  | some e => exact .inr (.inr ⟨p, e, h⟩)
  | none =>
    cases p with
    | none =>
      exfalso
      unfold unmarshal at h
      simp only [bind, Except.bind, pure, Except.pure] at h
      repeat' split at h
      all_goals simp at h
    | some p =>
      cases p with
      | pollReply q => exact .inl ⟨q, h⟩
      | _ => exact .inr (.inl ⟨_, h, by simp [opcodeFor]⟩)

theorem Heard.step {busy : Bool} {s s' : ExPoll} {a : ExAct} (h : Heard busy s) (hb : (∃ src d, a = .read src d) → busy = false)
    (hs : s.step a = some s') : Heard (busyAfter busy a) s' := by
  unfold Heard at h
  cases a with
  | read src d =>
    cases hb ⟨src, d, rfl⟩
    have : s'.main = s.main ∧ s'.printed = s.printed ∧ s'.handed = s.handed ∧ (s.main = .wait ∨ ∃ n, s.main = .got n) := by
      cases hr : s.reader <;> cases hm : s.main <;> simp [ExPoll.step, hr, hm] at hs
      all_goals split at hs <;> (cases hs; simp)
    obtain ⟨h1, h2, h3, h4 | ⟨n, h4⟩⟩ := this
    · rw [h4] at h
      unfold Heard
      rw [h1, h2, h3, h4]
      exact h
    · rw [h4] at h
      exact absurd h.1 (by simp)
  | readError =>
    have : s' = s := by
      cases hr : s.reader <;> cases hm : s.main <;> simp [ExPoll.step, hr, hm] at hs <;> exact hs.symm
    subst this
    exact h
  | hand =>
    cases hr : s.reader <;> cases hm : s.main <;> simp [ExPoll.step, hr, hm] at hs
    subst hs
    rw [hm] at h
    exact ⟨rfl, _, rfl, h⟩
  | parse =>
    cases hm : s.main with
    | got n =>
      rw [hm] at h
      obtain ⟨_, pre, h1, h2, h3⟩ := h
      rcases parse_cases (s.buf.take n) with ⟨p, hp⟩ | ho | ⟨p, e, hp⟩
      · simp [ExPoll.step, hm, hp] at hs
        subst hs
        have hr : replyConfig (s.buf.take n) = some (configFromArtPollReply p) := by simp [replyConfig, hp]
        have hn : ¬ OtherPacket (s.buf.take n) := by
          rintro ⟨q, hq, hne⟩
          rw [hp] at hq
          cases hq
          exact hne rfl
        unfold Heard
        simp only
        refine ⟨by rw [h1, h2]; simp [hr], fun d hd => ?_⟩
        rw [h1, List.mem_append, List.mem_singleton] at hd
        rcases hd with hd | rfl
        · exact h3 d hd
        · exact hn
      · have : s' = { s with main := .panicked } := by
          obtain ⟨q, hq, hne⟩ := ho
          cases q <;> simp [ExPoll.step, hm, hq] at hs <;> first | exact hs.symm | exact absurd rfl hne
        subst this
        exact ⟨pre, _, h1, h2, h3, ho⟩
      · simp [ExPoll.step, hm, hp] at hs
        subst hs
        have hr : replyConfig (s.buf.take n) = none := by simp [replyConfig, hp]
        have hn : ¬ OtherPacket (s.buf.take n) := by
          rintro ⟨q, hq, hne⟩
          rw [hp] at hq
          cases hq
        unfold Heard
        simp only
        refine ⟨by rw [h1, h2]; simp [hr], fun d hd => ?_⟩
        rw [h1, List.mem_append, List.mem_singleton] at hd
        rcases hd with hd | rfl
        · exact h3 d hd
        · exact hn
    | _ => simp [ExPoll.step, hm] at hs
  | timeout =>
    cases hm : s.main <;> simp [ExPoll.step, hm] at hs
    subst hs
    rw [hm] at h
    exact h

theorem steps_inv {P : List ExAct → ExPoll → Prop} (hstep : ∀ pre s a s', P pre s → s.step a = some s' → P (pre ++ [a]) s')
    {pre : List ExAct} {s s' : ExPoll} {as : List ExAct} (h : P pre s) (hs : s.steps as = some s') : P (pre ++ as) s' := by
  induction as generalizing pre s with
  | nil => cases hs; simpa using h
  | cons a as ih =>
    rw [ExPoll.steps] at hs
    cases h1 : s.step a with
    | none => simp [h1] at hs
    | some t =>
      rw [h1] at hs
      have := ih (hstep pre s a t h h1) hs
      simpa using this

theorem init_feed : Feed [] ExPoll.init := ⟨List.length_replicate, rfl⟩

theorem feed_of_steps {as : List ExAct} {s : ExPoll} (h : ExPoll.init.steps as = some s) : Feed (foreign as) s := by
  have := steps_inv (P := fun pre s => Feed (foreign pre) s)
    (fun pre s a s' h hs => by rw [foreign_append]; exact h.step hs) (pre := []) init_feed h
  simpa using this

theorem heard_of_steps {busy : Bool} {as : List ExAct} {s s' : ExPoll} (h : Heard busy s) (hc : calm busy as = true)
    (hs : s.steps as = some s') : ∃ b, Heard b s' := by
  induction as generalizing busy s with
  | nil => cases hs; exact ⟨_, h⟩
  | cons a as ih =>
    rw [ExPoll.steps] at hs
    cases h1 : s.step a with
    | none => simp [h1] at hs
    | some t =>
      rw [h1] at hs
      have hc := calm_cons hc
      exact ih (h.step hc.2 h1) hc.1 hs

theorem init_heard : Heard false ExPoll.init := ⟨rfl, fun _ h => nomatch h⟩

theorem not_other {d : Bytes} (h : d.take 10 = replyHeader) : ¬ OtherPacket d := by
  rintro ⟨p, hp, hne⟩
  apply hne
  have ho : opcodeFor p = opOf d := by
    cases accepts_of_unmarshal d p hp <;> (rename_i h _; simp_all [opcodeFor])
  rw [ho]
  have h8 : d[8]? = some 0 := by
    have : (d.take 10)[8]? = some 0 := by rw [h]; rfl
    simpa [List.getElem?_take] using this
  have h9 : d[9]? = some 0x21 := by
    have : (d.take 10)[9]? = some 0x21 := by rw [h]; rfl
    simpa [List.getElem?_take] using this
  simp only [opOf, le16At, byteAt, h8, h9]
  rfl

/-- The buffer holds an announcement, or at least its header, whenever somebody is concerned with it. -/
structure Headed (s : ExPoll) : Prop where
  len : s.buf.length = 4096
  sent : ∀ n, s.reader = .send n → 10 ≤ n ∧ s.buf.take 10 = replyHeader
  taken : ∀ n, s.main = .got n → 10 ≤ n ∧ s.buf.take 10 = replyHeader
  alive : s.main ≠ .panicked

theorem Headed.step {s s' : ExPoll} {a : ExAct} (h : Headed s)
    (hr : ∀ src d, a = .read src d → d.take 10 = replyHeader) (hs : s.step a = some s') : Headed s' := by
  obtain ⟨len, sent, taken, alive⟩ := h
  cases a with
  | read src d =>
    have hd := hr src d rfl
    have hdl : 10 ≤ d.length := by
      have := congrArg List.length hd
      simp [replyHeader] at this
      omega
    have hb : (copyInto s.buf d).take 10 = replyHeader := by
      rw [← hd, copyInto, len, List.take_append_of_le_length (by simp; omega), List.take_take]
      rfl
    have : s'.buf = copyInto s.buf d ∧ s'.main = s.main ∧ (s'.reader = s.reader ∨ s'.reader = .send (min 4096 d.length)) := by
      cases hr : s.reader <;> cases hm : s.main <;> simp [ExPoll.step, hr, hm] at hs
      all_goals split at hs <;> (cases hs; simp)
    obtain ⟨h1, h2, h3⟩ := this
    refine ⟨by rw [h1, copyInto_length, len], fun n hn => ?_, fun n hn => ?_, by rw [h2]; exact alive⟩
    · rw [h1]
      refine ⟨?_, hb⟩
      rcases h3 with h3 | h3
      · exact (sent n (h3 ▸ hn)).1
      · rw [h3] at hn; cases hn; omega
    · rw [h1]
      exact ⟨(taken n (h2 ▸ hn)).1, hb⟩
  | readError =>
    have : s' = s := by
      cases hr : s.reader <;> cases hm : s.main <;> simp [ExPoll.step, hr, hm] at hs <;> exact hs.symm
    subst this
    exact ⟨len, sent, taken, alive⟩
  | hand =>
    cases hr : s.reader <;> cases hm : s.main <;> simp [ExPoll.step, hr, hm] at hs
    subst hs
    exact ⟨len, by nofun, fun n hn => by cases hn; exact sent _ hr, by nofun⟩
  | parse =>
    cases hm : s.main with
    | got n =>
      have ht := taken n hm
      have hno : ¬ OtherPacket (s.buf.take n) :=
        not_other (by rw [List.take_take, Nat.min_eq_left ht.1]; exact ht.2)
      rcases parse_cases (s.buf.take n) with ⟨p, hp⟩ | ho | ⟨p, e, hp⟩
      · simp [ExPoll.step, hm, hp] at hs
        subst hs
        exact ⟨len, sent, by nofun, by nofun⟩
      · exact absurd ho hno
      · simp [ExPoll.step, hm, hp] at hs
        subst hs
        exact ⟨len, sent, by nofun, by nofun⟩
    | _ => simp [ExPoll.step, hm] at hs
  | timeout =>
    cases hm : s.main <;> simp [ExPoll.step, hm] at hs
    subst hs
    exact ⟨len, sent, by nofun, by nofun⟩

theorem headed_of_steps {as : List ExAct} {s s' : ExPoll} (h : Headed s)
    (hr : ∀ src d, ExAct.read src d ∈ as → d.take 10 = replyHeader) (hs : s.steps as = some s') : Headed s' := by
  induction as generalizing s with
  | nil => cases hs; exact h
  | cons a as ih =>
    rw [ExPoll.steps] at hs
    cases h1 : s.step a with
    | none => simp [h1] at hs
    | some t =>
      rw [h1] at hs
      exact ih (h.step (fun src d ha => hr src d (by simp [ha])) h1) (fun src d hm => hr src d (by simp [hm])) hs

end Verif.Example
